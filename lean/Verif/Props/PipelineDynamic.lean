import Verif.Props.DetectDynamic
import Verif.Props.Pipeline

/-!
# From the archive to located events, with thresholds that follow the data and smoothing (C115)
-/

namespace QM

open QM.Trigger QM.TriggerFiles QM.Pipeline QM.DetectRuns QM.DetectTrigger QM.Smooth QM.ScanMseed

/-- Every event of a trigger run is at a sample of the smoothed record that is at or above its threshold, and
events are reported in order. -/
theorem reported_triggers (cfg : Trigger.Cfg) (hmw : 0 ≤ cfg.mw) (hmei : 0 ≤ cfg.mei) (m : Method) (sr : ℚ) (n : ℕ)
    (hm : Spec.WindowSamples m sr n) (region : Option Region) (w : ℕ → ℚ) (r R : ℕ) (hR : r ≤ R * n)
    (D : List Row) (t0 δ : ℚ) (hδ : 0 < δ) (hD : Spec.Regular D t0 δ)
    (pad : ℚ) (hpad : (R + 1) * (n * δ) ≤ pad) (s e : ℚ) (hse : s ≤ e)
    (hal0 : ∃ k : ℤ, t0 = k * (n * δ)) (hald : ∃ k : ℤ, 86400 = k * (n * δ))
    (hals : ∃ k : ℤ, s = k * (n * δ)) (halp : ∃ k : ℤ, pad = k * (n * δ))
    (read : ℚ → ℚ → Option ScanData) (hread : Spec.ReadsFrom D pad read)
    (hrate : ∀ a b sd, read a b = some sd → sd.delta = δ ∧ sd.sr = sr)
    (hok : (trigger cfg m (smoothCoa w r) region read s e).2 = none) :
    (∀ x ∈ (trigger cfg m (smoothCoa w r) region read s e).1.flatMap Prod.snd,
      ∃ y ∈ smoothCoa w r D, y.dt = x.coaTime ∧
        Spec.Triggers cfg.norm (getThreshold m ((smoothCoa w r D).map (Row.trig cfg.norm)) sr) (smoothCoa w r D) y) ∧
    ((trigger cfg m (smoothCoa w r) region read s e).1.flatMap Prod.snd).Pairwise
      (fun x y => x.coaTime < y.coaTime) := by
  have hDs := regular_sorted hδ hD
  have hn := windowSamples_pos hm
  have hnq : (1 : ℚ) ≤ n := by exact_mod_cast hn
  obtain ⟨hpw, -⟩ := C13_no_event_twice cfg m (smoothCoa w r) region read s e hse
    (fun a b sd h => (hread a b sd h).2)
  obtain ⟨bs, hbs, -, heq, -⟩ := C07_batches_partition cfg m (smoothCoa w r) region read s e hse
  have heq := heq hok
  have hev : ∀ p ∈ (trigger cfg m (smoothCoa w r) region read s e).1,
      ∃ sd, read p.1.1 p.1.2 = some sd ∧
        p.2 = (triggerBatch cfg m (smoothCoa w r) region p.1.1 p.1.2 sd).1 := by
    unfold trigger
    rw [if_neg (not_lt.mpr hse)]
    exact (runBatches_prefix cfg m (smoothCoa w r) region read (batches s e)).2.2.2
  have hWs : ∀ a b : ℚ, (smoothCoa w r (win D a b)).Pairwise (fun r s => r.dt < s.dt) := fun a b =>
    smoothCoa_sorted w r _ (hDs.sublist List.filter_sublist)
  obtain ⟨k0, hk0⟩ := hal0
  obtain ⟨kd, hkd⟩ := hald
  obtain ⟨ks, hks⟩ := hals
  obtain ⟨kp, hkp⟩ := halp
  have hU : (0 : ℚ) < n * δ := by positivity
  have hstart : ∀ b ∈ bs, ∃ z : ℤ, b.1 - pad = t0 + z * (n * δ) := by
    intro b hb
    rcases batch_times hbs b hb with h | ⟨k, h⟩
    · refine ⟨ks - k0 - kp, ?_⟩
      push_cast
      rw [h]
      linarith
    · refine ⟨kd * k - k0 - kp, ?_⟩
      push_cast
      rw [h, hkd]
      linarith
  have hRpos : (0 : ℚ) ≤ R * (n * δ) := by positivity
  have hrR : (r : ℚ) * δ ≤ R * (n * δ) := by
    have : (r : ℚ) ≤ R * n := by exact_mod_cast hR
    nlinarith
  have hbatch : ∀ p ∈ (trigger cfg m (smoothCoa w r) region read s e).1, p.1 ∈ bs := by
    intro p hp
    rw [← heq]
    exact List.mem_map_of_mem hp
  generalize (trigger cfg m (smoothCoa w r) region read s e).1 = res at *
  constructor
  · intro x hx
    obtain ⟨p, hp, hx⟩ := List.mem_flatMap.mp hx
    obtain ⟨sd, hr, he'⟩ := hev p hp
    rw [he', mem_triggerBatch] at hx
    obtain ⟨hx1, hx2, hx3, -⟩ := hx
    obtain ⟨hsd, hδ'⟩ := hread _ _ _ hr
    simp only [hsd, (hrate _ _ _ hr).2] at hx1
    have hx5 : x.coaTime ≤ p.1.2 := by split at hx3 <;> linarith
    obtain ⟨c, -, y, hy, h1, -⟩ := event_peak_gen cfg (reads_triggers cfg.norm _ (hWs _ _)) (hWs _ _) hx1
    obtain ⟨z, hz⟩ := hstart p.1 (hbatch p hp)
    obtain ⟨γ, hγ1, hγ2⟩ : ∃ γ : ℤ, t0 + γ * (n * δ) ≤ p.1.2 + pad ∧ p.1.2 + pad < t0 + (γ + 1) * (n * δ) := by
      refine ⟨⌊(p.1.2 + pad - t0) / (n * δ)⌋, ?_, ?_⟩
      · have := Int.floor_le ((p.1.2 + pad - t0) / (n * δ))
        rw [le_div_iff₀ hU] at this
        linarith
      · have := Int.lt_floor_add_one ((p.1.2 + pad - t0) / (n * δ))
        rw [div_lt_iff₀ hU] at this
        linarith
    have hyD : y ∈ smoothCoa w r D :=
      (smooth_agree w r D hδ hD (by linarith) y (by linarith) (by linarith)).mp hy.mem
    exact ⟨y, hyD, h1.symm, (views_agree m sr n hm cfg.norm w r R hR D hδ hD (by linarith) z γ hz hγ1 y hyD
      (by linarith) (by linarith)).mp hy.above⟩
  · rw [List.pairwise_flatMap]
    refine ⟨?_, hpw⟩
    intro p hp
    obtain ⟨sd, h1, h2⟩ := hev p hp
    rw [h2]
    refine (C10_reported_events_separated cfg m (smoothCoa w r) region _ _ sd hmw ?_).imp
      (fun h => by linarith)
    rw [(hread _ _ _ h1).1]
    exact hWs _ _

/-- **C115** (partial), any threshold method, with or without smoothing.  `detect` into a new run, `trigger` and
`locate` over a part of the period scanned, with the midnights, both starts and the pad whole numbers of threshold
windows.  For every isolated burst of the stored, smoothed coalescence with largest sample `q` inside the region,
if the computed coalescence is largest, within two marginal windows of `q`, at a time `τ` less than one marginal window
from `q`, exactly one event is located with its trigger time or its origin time in the burst: it was triggered at
`q` and has the origin time `τ`.  Every located event was triggered at a sample that reaches its threshold.  Missing:
as for C113; and locate's window must get the coalescence that detect computed (C114 shows when it does). -/
theorem C115_dynamic_partial {σ : Type} (sr : ℕ) (k : Call) (h : Spec.GoodCall sr k)
    (hclean : Spec.Clean k) (halive : k.killed = .never) (hucf : 0 < k.cfg.ucf) (jul : ℤ → ℕ)
    (hjul : ∀ d, jul d ≠ jul (d + 1)) (order : Availability.Table → List ℤ) (cfg : Trigger.Cfg)
    (hmw : 0 < cfg.mw) (hmei : 0 ≤ cfg.mei) (n' : ℕ) (hn' : 2 * cfg.mw * sr = n')
    (m : Method) (n : ℕ) (hm : Spec.WindowSamples m sr n)
    (w : ℕ → ℚ) (r R : ℕ) (hR : r ≤ R * n) (region : Option Region) (pad s e : ℚ)
    (hald : ∃ i : ℤ, 86400 = i * (n * (1 / (sr : ℚ)))) (halk : ∃ i : ℤ, k.start = i * (n * (1 / (sr : ℚ))))
    (hals : ∃ i : ℤ, s = i * (n * (1 / (sr : ℚ)))) (halp : ∃ i : ℕ, pad = i * (n * (1 / (sr : ℚ))))
    (he : ∃ i : ℤ, e = i / (sr : ℚ))
    (hfrom : k.start ≤ s) (hto : e ≤ k.start + k.cfg.timestep * (Spec.steps k : ℚ)) (D : List Row)
    (hDD : D = smoothCoa w r ((Spec.computed k).map (storedRow k.cfg.ucf)))
    (u v : ℚ) (q : Row)
    (hb : Spec.Burst (Spec.Triggers cfg.norm (getThreshold m (D.map (Row.trig cfg.norm)) sr) D)
      (cfg.mei + cfg.mw) D u v q)
    (hlong : v - u + (cfg.mei + cfg.mw) + 1 / (sr : ℚ) + (R + 1) * (n * (1 / (sr : ℚ))) ≤ pad)
    (h1 : s ≤ q.dt) (h2 : q.dt < e) (hin : Spec.RowIn region q)
    (τ : ℚ) (c : Sample) (hc : (τ, c) ∈ Spec.computed k) (hnear : |τ - q.dt| < cfg.mw)
    (hdom : ∀ p ∈ Spec.computed k, |p.1 - q.dt| ≤ 2 * cfg.mw → p.1 ≠ τ → p.2.coa < c.coa)
    (events : TriggerFiles.Files) (hfresh : ∀ d, dayNum s ≤ d → events d = none) (uid : ℚ → ℕ)
    (outcome : Locate.Trig → Locate.Outcome σ) (later : Locate.Trig → Locate.Later)
    (hfine : Spec.NothingFails (Spec.computed k) outcome later)
    (hsame : Spec.Recomputes outcome (Spec.computed k) cfg.mw sr q.dt) :
    ∃ res, pipeline jul order Spec.newDir k cfg m (smoothCoa w r) region pad events uid outcome later s e =
        .located res ∧ res.completed = true ∧
      res.written.filter (fun x => decide (u ≤ x.1.time ∧ x.1.time ≤ v ∨ u ≤ x.2 ∧ x.2 ≤ v)) =
        [(⟨uid q.dt, q.dt⟩, τ)] ∧
      ∀ x ∈ res.written, ∃ y ∈ D, y.dt = x.1.time ∧
        Spec.Triggers cfg.norm (getThreshold m (D.map (Row.trig cfg.norm)) sr) D y := by
  have hse : s ≤ e := by linarith
  have hsr := h.rate_pos
  have hsr' : (0 : ℚ) < sr := by exact_mod_cast hsr
  have hlo := hb.lo
  have hhi := hb.hi
  have hpad : ∃ i : ℕ, pad = i / (sr : ℚ) := by
    obtain ⟨i, hi⟩ := halp
    exact ⟨i * n, by rw [hi]; push_cast; ring⟩
  have hs : ∃ i : ℤ, s = i / (sr : ℚ) := by
    obtain ⟨i, hi⟩ := hals
    exact ⟨i * n, by rw [hi]; push_cast; ring⟩
  obtain ⟨res, hdt, hrep, -⟩ := C113_dynamic_partial sr k h hclean halive hucf jul hjul order cfg hmw.le hmei m n hm
    w r R hR region pad s e hald halk hals halp he hfrom hto D hDD u v q hb hlong h1 h2
  obtain ⟨ev, hev1, hev2, -⟩ := hrep hin
  obtain ⟨dir, read', hdir, htrig, hok, hreads, hdelta, hDsort, hCsort, hgrid, hrate, hreg⟩ := detect_read h hclean
    halive jul hjul order cfg m (smoothCoa w r) region pad s e hpad hs he hfrom hto hse
  have hres' : res = (trigger cfg m (smoothCoa w r) region read' s e).1 := by
    unfold detectTrigger at hdt
    rw [hdir] at hdt
    simp only [Option.some.injEq] at hdt
    rw [← htrig, hdt]
  have hδ : (0 : ℚ) < 1 / (sr : ℚ) := by positivity
  obtain ⟨habove, hsort⟩ := reported_triggers cfg hmw.le hmei m sr n hm region w r R hR _ k.start (1 / (sr : ℚ)) hδ hreg pad
    (by linarith) s e hse halk hald hals (by obtain ⟨i, hi⟩ := halp; exact ⟨i, by rw [hi]; push_cast; ring⟩) read' hreads
    (fun a b sd hsd => ⟨hdelta a b sd hsd, hrate a b sd hsd⟩) hok
  rw [← hres', ← hDD] at habove
  rw [← hres'] at hsort
  -- samples of the smoothed record are those of the record
  have hDt : ∀ y ∈ D, ∃ p ∈ Spec.computed k, p.1 = y.dt := by
    intro y hy
    rw [hDD] at hy
    obtain ⟨i, hi⟩ := List.mem_iff_getElem?.mp hy
    obtain ⟨z, hz, hzy⟩ := smoothCoa_getElem?' w r _ hi
    obtain ⟨p, hp, hpz⟩ := List.mem_map.mp (List.mem_of_getElem? hz)
    exact ⟨p, hp, by rw [hzy, ← hpz]; rfl⟩
  have hevr : ev ∈ res.flatMap Prod.snd := by
    have : ev ∈ (res.flatMap Prod.snd).filter (fun x => decide (u ≤ x.coaTime ∧ x.coaTime ≤ v)) := by
      rw [hev1]; simp
    exact (List.mem_filter.mp this).1
  have hone : ∀ x ∈ res.flatMap Prod.snd, u ≤ x.coaTime → x.coaTime ≤ v → x = ev := by
    intro x hx h3 h4
    have : x ∈ (res.flatMap Prod.snd).filter (fun x => decide (u ≤ x.coaTime ∧ x.coaTime ≤ v)) :=
      List.mem_filter.mpr ⟨hx, by simp [h3, h4]⟩
    rw [hev1] at this
    simpa using this
  have hfar : ∀ x ∈ res.flatMap Prod.snd, ¬ (u ≤ x.coaTime ∧ x.coaTime ≤ v) →
      x.coaTime + (cfg.mei + cfg.mw) < u ∨ v + (cfg.mei + cfg.mw) < x.coaTime := by
    intro x hx hn
    obtain ⟨y, hy, h6, h5⟩ := habove x hx
    rw [← h6] at hn ⊢
    by_cases h7 : y.dt < u
    · exact Or.inl (hb.before y hy h7 h5).1
    · exact Or.inr (hb.after y hy (by by_contra h8; exact hn ⟨not_lt.mp h7, not_lt.mp h8⟩) h5).1
  have hgq : ∃ i : ℤ, τ - q.dt = i / (sr : ℚ) := by
    obtain ⟨p, hp, hpq⟩ := hDt q hb.mem
    obtain ⟨a, ha⟩ := hgrid _ (List.mem_map.mpr ⟨_, hc, rfl⟩)
    obtain ⟨b, hb'⟩ := hgrid _ (List.mem_map.mpr ⟨p, hp, rfl⟩)
    refine ⟨a - b, ?_⟩
    have e1 : τ = a * (1 / (sr : ℚ)) := ha
    have e2 : p.1 = b * (1 / (sr : ℚ)) := hb'
    rw [← hpq, e1, e2]
    push_cast
    ring
  obtain ⟨hcomp, hfil, hwr⟩ := located_once hsr hmw (by linarith : cfg.mw ≤ cfg.mei + cfg.mw) n' hn' hCsort hsort
    hc hgq hnear hevr hev2 hlo hhi hone hfar
    (fun x hx => by
      obtain ⟨y, hy, h3, -⟩ := habove x hx
      obtain ⟨p, hp, h4⟩ := hDt y hy
      exact ⟨p, hp, by rw [h4, h3]⟩) hdom uid outcome later hfine hsame
  refine ⟨_, ?_, hcomp, hfil, ?_⟩
  · exact pipeline_eq hsr jul order k h.rate cfg _ _ region pad s e hse events hfresh uid outcome later res hdt
      (List.ne_nil_of_mem hevr)
  · intro x hx
    obtain ⟨a, ha, h3⟩ := hwr x hx
    obtain ⟨y, hy, h4, h5⟩ := habove a ha
    exact ⟨y, hy, by rw [h4, h3], h5⟩

/-- All hypotheses of `C115_dynamic_partial` hold for `burstCall`, with twice the median of ten seconds as the
threshold and smoothing. -/
example (jul : ℤ → ℕ) (hjul : ∀ d, jul d ≠ jul (d + 1)) (order : Availability.Table → List ℤ) (uid : ℚ → ℕ) :
    ∃ r, pipeline jul order Spec.newDir burstCall ⟨1, 2, true⟩ (.medianRatio 10 2)
        (smoothCoa (fun k => if k = 1 then 1 / 2 else 1 / 4) 1) none 30
        (fun _ => none) uid burstOutcome (fun _ => .fine) 86390 86408 = .located r ∧ r.completed = true ∧
      r.written.filter (fun w => decide (86399 ≤ w.1.time ∧ w.1.time ≤ 86401 ∨ 86399 ≤ w.2 ∧ w.2 ≤ 86401)) =
        [(⟨uid 86399, 86399⟩, 86399)] := by
  obtain ⟨r, h1, h2, h3, -⟩ := C115_dynamic_partial 1 burstCall burstCall_good burstCall_clean rfl
    (by norm_num [burstCall, exDetCfg2]) jul hjul order ⟨1, 2, true⟩ (by norm_num) (by norm_num) 2 (by norm_num)
    (.medianRatio 10 2) 10 ⟨by norm_num, by decide +kernel⟩ (fun k => if k = 1 then 1 / 2 else 1 / 4) 1 1
    (by norm_num) none 30 86390 86408 ⟨8640, by norm_num⟩ ⟨8639, by norm_num [burstCall]⟩ ⟨8639, by norm_num⟩
    ⟨3, by norm_num⟩ ⟨86408, by norm_num⟩ (by norm_num [burstCall]) (by decide +kernel) burstSmoothed rfl
    86399 86401 _ (by push_cast; exact burstSmoothed_burst) (by norm_num) (by norm_num) (by norm_num)
    (fun r hr => by simp at hr) 86399 ⟨5, 4, 10, 20, 1⟩ (by decide +kernel) (by norm_num) (by decide +kernel)
    (fun _ => none) (fun _ _ => rfl) uid burstOutcome (fun _ => .fine)
    (fun x _ => ⟨rfl, by unfold burstOutcome; split <;> simp, by intro m; unfold burstOutcome; split <;> simp⟩)
    (fun x hx => ⟨_, _, by unfold burstOutcome; rw [if_pos hx], by decide +kernel, by decide +kernel⟩)
  exact ⟨r, h1, h2, h3⟩

end QM
