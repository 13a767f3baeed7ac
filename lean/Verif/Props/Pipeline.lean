import Verif.Model.Pipeline
import Verif.Props.DetectTrigger
import Verif.Props.TriggerMisc
import Verif.Props.Locate
import Verif.Lemmas.Pads

/-!
# From the archive to located events (C115)
-/

namespace QM

open QM.Trigger QM.TriggerFiles QM.Pipeline QM.DetectRuns QM.DetectTrigger QM.ScanMseed

/-! ## What trigger reports is what locate works on -/

section
variable {cfg : Trigger.Cfg} {m : Method} {smooth : List Trigger.Row → List Trigger.Row} {region : Option Region}
  {read : ℚ → ℚ → Option ScanData}

theorem triggerWrites_error (f : TriggerFiles.Files) (bs : List (ℚ × ℚ)) :
    (triggerWrites cfg m smooth region read f bs).2 = (runBatches cfg m smooth region read bs).2 := by
  induction bs generalizing f with
  | nil => rfl
  | cons b bs ih =>
    simp only [triggerWrites, runBatches]
    cases read b.1 b.2 with
    | none => rfl
    | some sd => exact ih _

theorem dayNum_next (s : ℚ) : dayNum (dayStart s + DAY) = dayNum s + 1 := by
  have h1 : (dayStart s + DAY) / DAY = ((⌊s / DAY⌋ + 1 : ℤ) : ℚ) := by
    unfold dayStart DAY; push_cast; ring
  unfold dayNum
  rw [h1, Int.floor_intCast]

theorem batchWrite_other (f : TriggerFiles.Files) (s : ℚ) (c ev : List Cand) {d : ℤ} (h : d ≠ dayNum s) :
    batchWrite f s c ev d = f d := by
  unfold batchWrite TriggerFiles.Files.write
  split
  · rfl
  · simp [h]

theorem triggerWrites_before (s e : ℚ) (f : TriggerFiles.Files) (d : ℤ) (hd : d < dayNum s) :
    (triggerWrites cfg m smooth region read f (batches s e)).1 d = f d := by
  induction s using batches.induct (e := e) generalizing f with
  | case1 s h nd ih =>
    rw [batches_cons h]
    simp only [triggerWrites]
    cases read s _ with
    | none => rfl
    | some sd =>
      simp only
      rw [ih _ (by rw [dayNum_next]; omega)]
      exact batchWrite_other _ _ _ _ (by omega)
  | case2 s h => rw [batches_of_le (not_lt.mp h)]; rfl

theorem refine_nil (cfg : Trigger.Cfg) : refineCandidates cfg [] = [] := by
  rfl

theorem read_back (s e : ℚ) (f : TriggerFiles.Files) (hf : ∀ d, dayNum s ≤ d → f d = none)
    (hok : (runBatches cfg m smooth region read (batches s e)).2 = none) :
    ((readDays (dayNum s) e).filterMap (triggerWrites cfg m smooth region read f (batches s e)).1).flatten =
      (runBatches cfg m smooth region read (batches s e)).1.flatMap Prod.snd := by
  induction s using batches.induct (e := e) generalizing f with
  | case1 s h nd ih =>
    rw [batches_cons h] at hok ⊢
    simp only [triggerWrites, runBatches] at hok ⊢
    cases hr : read s (if dayStart s + DAY ≤ e then dayStart s + DAY else e) with
    | none => rw [hr] at hok; simp at hok
    | some sd =>
      rw [hr] at hok
      simp only at hok ⊢
      have hd : DAY * ((dayNum s : ℤ) : ℚ) ≤ e := by
        have := Int.floor_le (s / DAY)
        unfold dayNum DAY at *
        rw [le_div_iff₀ (by norm_num)] at this
        linarith
      have hnil : identifyCandidates cfg (smooth sd.rows)
          (getThreshold m ((smooth sd.rows).map (Row.trig cfg.norm)) sd.sr) = [] → (triggerBatch cfg m smooth region s
            (if dayStart s + DAY ≤ e then dayStart s + DAY else e) sd).1 = [] := by
        intro hc
        rw [List.eq_nil_iff_forall_not_mem]
        intro x hx
        rw [mem_triggerBatch, hc, refine_nil] at hx
        simp at hx
      generalize identifyCandidates cfg (smooth sd.rows)
          (getThreshold m ((smooth sd.rows).map (Row.trig cfg.norm)) sd.sr) = c at hnil ⊢
      generalize (triggerBatch cfg m smooth region s
          (if dayStart s + DAY ≤ e then dayStart s + DAY else e) sd).1 = ev at hnil ⊢
      have ih' := ih (batchWrite f s c ev) (by
          intro d hd
          rw [dayNum_next] at hd
          rw [batchWrite_other _ _ _ _ (by omega)]
          exact hf d (by omega)) hok
      rw [dayNum_next] at ih'
      rw [readDays, dif_pos hd, List.filterMap_cons, triggerWrites_before _ _ _ _ (by rw [dayNum_next]; omega),
        List.flatMap_cons, ← ih']
      by_cases hc : c = []
      · have hw : batchWrite f s c ev (dayNum s) = none := by
          unfold batchWrite
          rw [if_pos hc]
          exact hf _ le_rfl
        rw [hw, hnil hc, List.nil_append]
      · have hw : batchWrite f s c ev (dayNum s) = some ev := by
          unfold batchWrite TriggerFiles.Files.write
          rw [if_neg hc, if_pos rfl]
        rw [hw, List.flatten_cons]
  | case2 s h =>
    rw [batches_of_le (not_lt.mp h)]
    simp only [triggerWrites, runBatches, List.flatMap_nil, List.flatten_eq_nil_iff, List.mem_filterMap]
    rintro l ⟨d, hd, hl⟩
    rw [hf d ?_] at hl
    · simp at hl
    · exact ((mem_readDays _ _ _).mp hd).1


/-- C115: the events that a trigger run over a period reports, in a run without triggered-event files of these days,
are, in order, the events that locate over the same period works on; if there is no candidate on any day, locate
reports the lack of files. -/
theorem C115_locate_gets_what_trigger_reported (s e : ℚ) (hse : s ≤ e)
    (hdelta : ∀ a b sd, read a b = some sd → 0 < sd.delta)
    (f : TriggerFiles.Files) (hf : ∀ d, dayNum s ≤ d → f d = none) (res : List ((ℚ × ℚ) × List Cand))
    (hres : trigger cfg m smooth region read s e = (res, none)) :
    ∃ F, triggerToFiles cfg m smooth region read f s e = (F, none) ∧
      (readTriggered F s e = some (res.flatMap Prod.snd) ∨
        readTriggered F s e = none ∧ res.flatMap Prod.snd = []) := by
  have hC13 := (C13_no_event_twice cfg m smooth region read s e hse hdelta).2
  obtain ⟨bs, hbs, hpre, -, -⟩ := C07_batches_partition cfg m smooth region read s e hse
  rw [hres] at hC13 hpre
  simp only at hC13 hpre
  unfold trigger at hres
  rw [if_neg (not_lt.mpr hse)] at hres
  have hok : (runBatches cfg m smooth region read (batches s e)).2 = none := by rw [hres]
  have hback := read_back s e f hf hok
  have herr := triggerWrites_error (cfg := cfg) (m := m) (smooth := smooth) (region := region) (read := read) f
    (batches s e)
  rw [hres] at hback herr
  simp only at hback herr
  have hin : ∀ ev ∈ res.flatMap Prod.snd, s ≤ ev.coaTime ∧ ev.coaTime ≤ e ∧
      (isMidnight e → ev.coaTime < e) := by
    intro ev hev
    obtain ⟨p, hp, hev⟩ := List.mem_flatMap.mp hev
    obtain ⟨h1, h2, h3⟩ := hC13 p hp ev hev
    refine ⟨h1, h2, fun hm => lt_of_le_of_ne h2 fun he => ?_⟩
    have hb := hpre.subset (List.mem_map_of_mem hp)
    have h4 := hbs.nonempty _ hb
    have h5 := (hbs.inside _ hb).2
    obtain ⟨n, hn⟩ := (isMidnight_iff _).mp hm
    have h6 : dayStart ev.coaTime = e := by
      rw [he, dayStart_eq_of (k := n) (by rw [hn]) (by rw [hn]; unfold DAY; linarith)]
      rw [hn]
    have h7 : dayStart p.1.1 ≤ p.1.1 := by
      unfold dayStart
      have := Int.floor_le (p.1.1 / DAY)
      unfold DAY at *
      rw [le_div_iff₀ (by norm_num)] at this
      linarith
    rw [← h3, h6] at h7
    linarith
  refine ⟨(triggerWrites cfg m smooth region read f (batches s e)).1, ?_, ?_⟩
  · unfold triggerToFiles
    rw [if_neg (not_lt.mpr hse)]
    exact Prod.ext rfl herr
  · unfold readTriggered
    simp only
    split
    · rename_i h
      rw [h] at hback
      exact Or.inr ⟨rfl, by rw [← hback]; rfl⟩
    · left
      rw [hback]
      split
      · rename_i hm
        congr 1
        rw [List.filter_eq_self]
        intro ev hev
        obtain ⟨h1, -, h3⟩ := hin ev hev
        simp [h1, h3 hm]
      · congr 1
        rw [List.filter_eq_self]
        intro ev hev
        obtain ⟨h1, h2, -⟩ := hin ev hev
        simp [h1, h2]

end

/-! ## The whole chain -/

/-- The time of a reported event is that of a sample at or above the threshold. -/
theorem event_level {cfg : Trigger.Cfg} (hmw : 0 ≤ cfg.mw) {t : ℚ} {region : Option Region} {D : List Trigger.Row}
    (hD : D.Pairwise (fun r s => r.dt < s.dt)) {pad : ℚ} {read : ℚ → ℚ → Option ScanData}
    (hread : Spec.ReadsFrom D pad read) {s e : ℚ} (hse : s ≤ e) {ev : Cand}
    (hev : ev ∈ (trigger cfg (.static t) id region read s e).1.flatMap Prod.snd) :
    ∃ r ∈ D, r.dt = ev.coaTime ∧ t ≤ Spec.trigValue cfg.norm r := by
  have hb : ∀ p ∈ (trigger cfg (.static t) id region read s e).1,
      ∃ sd, read p.1.1 p.1.2 = some sd ∧
        p.2 = (triggerBatch cfg (.static t) id region p.1.1 p.1.2 sd).1 := by
    unfold trigger
    rw [if_neg (not_lt.mpr hse)]
    exact (runBatches_prefix cfg (.static t) id region read (batches s e)).2.2.2
  obtain ⟨p, hp, hev⟩ := List.mem_flatMap.mp hev
  obtain ⟨sd, hr, he'⟩ := hb p hp
  rw [he', mem_triggerBatch] at hev
  obtain ⟨hx1, -⟩ := hev
  obtain ⟨hsd, -⟩ := hread _ _ _ hr
  simp only [id, hsd] at hx1
  have hW : (win D (p.1.1 - pad) (p.1.2 + pad)).Pairwise (fun r s => r.dt < s.dt) :=
    hD.sublist List.filter_sublist
  change ev ∈ refineCandidates cfg (staticCands cfg t sd.sr (win D (p.1.1 - pad) (p.1.2 + pad))) at hx1
  obtain ⟨hfl, -⟩ := mergedGroups_spec cfg (staticCands cfg t sd.sr (win D (p.1.1 - pad) (p.1.2 + pad)))
  obtain ⟨g, hg, pre, best, post, hs, -, -, e1, -⟩ := forall₂_exists_right
    (refine_forall₂ cfg (staticCands cfg t sd.sr (win D (p.1.1 - pad) (p.1.2 + pad)))) hx1
  have hbest : best ∈ staticCands cfg t sd.sr (win D (p.1.1 - pad) (p.1.2 + pad)) := by
    rw [← hfl]
    exact List.mem_flatten.mpr ⟨g, hg, by rw [hs]; simp⟩
  obtain ⟨f, l, q, hc⟩ := cand_facts cfg hmw t sd.sr _ hW hbest
  have hq := mem_win.mp hc.peak.mem
  exact ⟨q, hq.1, by rw [e1, hc.time], hc.peak.above⟩

/-- No event at the time of a sample that was scanned fails with another exception than those for unusable data, and
every later stage succeeds. -/
def Spec.NothingFails {σ : Type} (S : List (ℚ × Sample)) (outcome : Locate.Trig → Locate.Outcome σ)
    (later : Locate.Trig → Locate.Later) : Prop :=
  ∀ x : Locate.Trig, (∃ p ∈ S, p.1 = x.time) → later x = .fine ∧ outcome x ≠ .other ∧
    ∀ map, outcome x ≠ .computed [] map

/-- For the triggered event at `τ` locate computes, for the samples from two marginal windows before to two
after, the coalescence that detect computed. -/
def Spec.Recomputes {σ : Type} (outcome : Locate.Trig → Locate.Outcome σ) (S : List (ℚ × Sample)) (mw : ℚ)
    (sr : ℕ) (τ : ℚ) : Prop :=
  ∀ x : Locate.Trig, x.time = τ → ∃ rows map, outcome x = .computed rows map ∧
    rows.map Locate.Row.dt = Pads.mwTimes τ mw sr ∧ ∀ r ∈ rows, ∃ p ∈ S, p.1 = r.dt ∧ p.2.coa = r.coa

theorem skipped_or_located {σ : Type} {mw : ℚ} (hmw : 0 ≤ mw) {outcome : Locate.Trig → Locate.Outcome σ}
    {later : Locate.Trig → Locate.Later} (x : Locate.Trig)
    (h : later x = .fine ∧ outcome x ≠ .other ∧ ∀ map, outcome x ≠ .computed [] map) :
    Skipped mw outcome x ∨ (later x = .fine ∧ ∃ o, Located mw outcome x o) := by
  obtain ⟨h1, h2, h3⟩ := h
  cases hx : outcome x with
  | archiveEmpty => exact Or.inl (Or.inl hx)
  | dataGap => exact Or.inl (Or.inr (Or.inl hx))
  | dataAvailability => exact Or.inl (Or.inr (Or.inr (Or.inl hx)))
  | other => exact absurd hx h2
  | computed rows map =>
    have hne : rows ≠ [] := by
      rintro rfl
      exact h3 map hx
    have hs : (Locate.addComputeOutput rows map).isSome := by
      unfold Locate.addComputeOutput Locate.maxRow
      rw [Option.isSome_map]
      exact Option.isSome_iff_exists.mpr (firstMaxBy_isSome _ hne)
    obtain ⟨e, he⟩ := Option.isSome_iff_exists.mp hs
    by_cases hw : |e.otime - x.time| < mw
    · obtain ⟨e', h4, -⟩ := C21_trim_keeps rows map e mw hmw he
      exact Or.inr ⟨h1, _, located_of hx he ((inMarginalWindow_iff _ _ _).mpr hw) h4⟩
    · exact Or.inl (Or.inr (Or.inr (Or.inr ⟨rows, map, e, hx, he, not_lt.mp hw⟩)))

theorem stored_above {ucf : ℚ} {norm : Bool} {t : ℚ} {p : ℚ × Sample} (h1 : 0 ≤ p.2.coa) (h2 : 0 ≤ p.2.coaN)
    (h : t ≤ Spec.trigValue norm (storedRow ucf p)) : t - 1 / 200000 ≤ Spec.level norm p.2 := by
  have h3 := stored_level ucf norm p h1 h2
  rw [abs_le] at h3
  have h4 := min_le_left (Spec.level norm p.2) 21474
  linarith [h3.2]

/-- The events of a trigger run over what `detect` stored are at samples at or above the threshold, up to what is lost
when they are stored. -/
theorem reported_above {sr : ℕ} {k : Call} (h : Spec.GoodCall sr k) (hclean : Spec.Clean k)
    (halive : k.killed = .never) (hpos : ∀ p ∈ Spec.computed k, 0 ≤ p.2.coa ∧ 0 ≤ p.2.coaN) (jul : ℤ → ℕ)
    (hjul : ∀ d, jul d ≠ jul (d + 1)) (order : Availability.Table → List ℤ) (cfg : Trigger.Cfg) (hmw : 0 ≤ cfg.mw)
    (t : ℚ) (region : Option Region) (pad s e : ℚ)
    (hpad : ∃ i : ℕ, pad = i / (sr : ℚ)) (hs : ∃ i : ℤ, s = i / (sr : ℚ)) (he : ∃ i : ℤ, e = i / (sr : ℚ))
    (hfrom : k.start ≤ s) (hto : e ≤ k.start + k.cfg.timestep * (Spec.steps k : ℚ)) (hse : s ≤ e)
    (res : List ((ℚ × ℚ) × List Cand))
    (hdt : detectTrigger jul order Spec.newDir k cfg (.static t) id region pad s e = some (res, none)) :
    ∀ x ∈ res.flatMap Prod.snd, ∃ p ∈ Spec.computed k, p.1 = x.coaTime ∧
      t - 1 / 200000 ≤ Spec.level cfg.norm p.2 := by
  obtain ⟨dir, read', hdir, htrig, hok, hreads, hdelta, hDsort, hCsort, -⟩ := detect_read h hclean halive jul
    hjul order cfg (.static t) id region pad s e hpad hs he hfrom hto hse
  have hres' : res = (trigger cfg (.static t) id region read' s e).1 := by
    unfold detectTrigger at hdt
    rw [hdir] at hdt
    simp only [Option.some.injEq] at hdt
    rw [← htrig, hdt]
  intro x hx
  rw [hres'] at hx
  obtain ⟨r, hr, h3, h4⟩ := event_level hmw hDsort hreads hse hx
  obtain ⟨p, hp, rfl⟩ := List.mem_map.mp hr
  exact ⟨p, hp, h3, stored_above (hpos p hp).1 (hpos p hp).2 h4⟩

/-- Around the largest sample of a clear burst there is none as large, when the trigger value is the coalescence. -/
theorem clear_dominates {t gap : ℚ} {S : List (ℚ × Sample)} {u v τ : ℚ} {q : Sample}
    (hb : Spec.ClearBurst false t gap S u v τ q) {r : ℚ} (hr : r ≤ gap) :
    ∀ p ∈ S, |p.1 - τ| ≤ r → p.1 ≠ τ → p.2.coa < q.coa := by
  intro p hp hd hne
  rw [abs_le] at hd
  have hlo := hb.lo
  have hhi := hb.hi
  have hq := hb.above _ hb.mem hb.lo hb.hi
  simp only [Spec.level, Bool.false_eq_true, if_false] at hq
  by_cases h1 : v < p.1
  · by_contra hn
    have := (hb.after p hp h1 (by simp only [Spec.level, Bool.false_eq_true, if_false]; linarith)).1
    linarith [hd.2]
  by_cases h2 : p.1 < u
  · by_contra hn
    have := (hb.before p hp h2 (by simp only [Spec.level, Bool.false_eq_true, if_false]; linarith)).1
    linarith [hd.1]
  have := hb.largest p hp (not_lt.mp h2) (not_lt.mp h1) hne
  linarith

/-- If the trigger run reports an event, locate gets the events reported. -/
theorem pipeline_eq {σ : Type} {sr : ℕ} (hsr : 0 < sr) (jul : ℤ → ℕ) (order : Availability.Table → List ℤ)
    (k : Call) (hrate : k.cfg.scanRate = sr) (cfg : Trigger.Cfg) (m : Method)
    (smooth : List Trigger.Row → List Trigger.Row) (region : Option Region)
    (pad s e : ℚ) (hse : s ≤ e) (events : TriggerFiles.Files) (hfresh : ∀ d, dayNum s ≤ d → events d = none)
    (uid : ℚ → ℕ) (outcome : Locate.Trig → Locate.Outcome σ) (later : Locate.Trig → Locate.Later)
    (res : List ((ℚ × ℚ) × List Cand))
    (hdt : detectTrigger jul order Spec.newDir k cfg m smooth region pad s e = some (res, none))
    (hne : res.flatMap Prod.snd ≠ []) :
    pipeline jul order Spec.newDir k cfg m smooth region pad events uid outcome later s e =
      .located (Locate.locateEvents cfg.mw outcome later ((res.flatMap Prod.snd).map (toTrig uid))) := by
  have hsr' : (0 : ℚ) < sr := by exact_mod_cast hsr
  unfold detectTrigger at hdt
  cases hdir : DetectRuns.call jul order Spec.newDir k with
  | none => rw [hdir] at hdt; simp at hdt
  | some dir =>
    rw [hdir] at hdt
    simp only [Option.some.injEq] at hdt
    obtain ⟨F, hF, hread⟩ := C115_locate_gets_what_trigger_reported s e hse
      (read := readBatch k.cfg.scanRate k.cfg.ucf pad dir.scan) (cfg := cfg) (m := m) (smooth := smooth)
      (region := region) (by
        intro a b sd hsd
        unfold readBatch at hsd
        rw [Option.map_eq_some_iff] at hsd
        obtain ⟨L, -, rfl⟩ := hsd
        simp only [hrate]
        positivity) events hfresh res hdt
    have hread : readTriggered F s e = some (res.flatMap Prod.snd) := by
      rcases hread with h3 | ⟨-, h3⟩
      · exact h3
      · exact absurd h3 hne
    unfold pipeline
    rw [hdir]
    simp only [hF, hread]

/-- A list of triggered events, one of which lies in `[u, v]`, the others far from it; locate computes for it the
coalescence of `S`, which is largest at `τ'`.  Then exactly one event is located in `[u, v]`. -/
theorem located_once {σ : Type} {sr : ℕ} (hsr : 0 < sr) {mw gap : ℚ} (hmw : 0 < mw) (hgap : mw ≤ gap)
    (n : ℕ) (hn : 2 * mw * sr = n) {S : List (ℚ × Sample)} (hCsort : S.Pairwise (fun a b => a.1 < b.1))
    {evs : List Cand} (hsort : evs.Pairwise (fun x y => x.coaTime < y.coaTime)) {u v τ τ' : ℚ} {q : Sample}
    (hqS : (τ', q) ∈ S) (hgrid : ∃ i : ℤ, τ' - τ = i / (sr : ℚ)) (hnear : |τ' - τ| < mw)
    {ev : Cand} (hevr : ev ∈ evs) (hev2 : ev.coaTime = τ) (hlo : u ≤ τ) (hhi : τ ≤ v)
    (hone : ∀ x ∈ evs, u ≤ x.coaTime → x.coaTime ≤ v → x = ev)
    (hfar : ∀ x ∈ evs, ¬ (u ≤ x.coaTime ∧ x.coaTime ≤ v) → x.coaTime + gap < u ∨ v + gap < x.coaTime)
    (htimes : ∀ x ∈ evs, ∃ p ∈ S, p.1 = x.coaTime)
    (hdom' : ∀ p ∈ S, |p.1 - τ| ≤ 2 * mw → p.1 ≠ τ' → p.2.coa < q.coa)
    (uid : ℚ → ℕ) (outcome : Locate.Trig → Locate.Outcome σ) (later : Locate.Trig → Locate.Later)
    (hfine : Spec.NothingFails S outcome later) (hsame : Spec.Recomputes outcome S mw sr τ) :
    (Locate.locateEvents mw outcome later (evs.map (toTrig uid))).completed = true ∧
    (Locate.locateEvents mw outcome later (evs.map (toTrig uid))).written.filter
        (fun w => decide (u ≤ w.1.time ∧ w.1.time ≤ v ∨ u ≤ w.2 ∧ w.2 ≤ v)) = [(⟨uid τ, τ⟩, τ')] ∧
    ∀ w ∈ (Locate.locateEvents mw outcome later (evs.map (toTrig uid))).written,
      ∃ c ∈ evs, c.coaTime = w.1.time := by
  have hsr' : (0 : ℚ) < sr := by exact_mod_cast hsr
  set trigs := evs.map (toTrig uid) with htrigs
  obtain ⟨hwr, hsub⟩ := C19_only_in_window mw outcome later trigs
  obtain ⟨hcomp, hall⟩ := C19_all_located mw outcome later trigs
    (fun x hx => by
      rw [htrigs] at hx
      obtain ⟨c, hc, rfl⟩ := List.mem_map.mp hx
      exact skipped_or_located hmw.le _ (hfine _ (htimes c hc)))
  have hloc : ∀ x : Locate.Trig, x.time = τ → ∀ o, Located mw outcome x o ↔ o = τ' := by
    intro x hxt o
    obtain ⟨rows, map, hout, hdts, hvals⟩ := hsame x hxt
    have hwin : ∀ r ∈ rows, |r.dt - τ| ≤ 2 * mw := by
      intro r hr
      have : r.dt ∈ Pads.mwTimes τ mw sr := by rw [← hdts]; exact List.mem_map_of_mem hr
      simp only [Pads.mwTimes, List.mem_map, List.mem_range] at this
      obtain ⟨i, hi, hi'⟩ := this
      have hlen : (pyInt (4 * mw * sr + 1)).toNat = 2 * n + 1 := by
        have : (4 * mw * sr + 1 : ℚ) = ((2 * n + 1 : ℕ) : ℚ) := by
          push_cast; rw [← hn]; ring
        rw [this, Pads.pyInt_natCast]; omega
      rw [hlen] at hi
      have hi2 : (i : ℚ) ≤ 2 * n := by
        have : i ≤ 2 * n := by omega
        exact_mod_cast this
      have h3 : (i : ℚ) / sr ≤ 4 * mw := by
        rw [div_le_iff₀ hsr']; linarith
      have h4 : (0 : ℚ) ≤ (i : ℚ) / sr := by positivity
      rw [abs_le, ← hi']
      constructor <;> linarith
    have hmem : ∃ r ∈ rows, r.dt = τ' := by
      have hin : τ' ∈ Pads.mwTimes τ mw sr := by
        simp only [Pads.mwTimes, List.mem_map, List.mem_range]
        obtain ⟨i, hi⟩ := hgrid
        have hi' : (i : ℚ) = (τ' - τ) * sr := by rw [hi]; field_simp
        rw [abs_lt] at hnear
        have hi1 : -(n : ℤ) ≤ i := by
          have : -(n : ℚ) ≤ i := by rw [hi', ← hn]; nlinarith
          exact_mod_cast this
        have hi2 : i ≤ (n : ℤ) := by
          have : (i : ℚ) ≤ n := by rw [hi', ← hn]; nlinarith
          exact_mod_cast this
        refine ⟨(n + i).toNat, ?_, ?_⟩
        · have : (4 * mw * sr + 1 : ℚ) = ((2 * n + 1 : ℕ) : ℚ) := by
            push_cast; rw [← hn]; ring
          rw [this, Pads.pyInt_natCast]; omega
        · have h8 : (((n + i).toNat : ℕ) : ℚ) = n + i := by
            have : (((n + i).toNat : ℕ) : ℤ) = n + i := by omega
            exact_mod_cast this
          rw [h8, ← hn, hi']; field_simp; ring
      rw [← hdts] at hin
      obtain ⟨r, hr, h3⟩ := List.mem_map.mp hin
      exact ⟨r, hr, h3⟩
    have hcoa : ∀ r ∈ rows, (r.dt = τ' → r.coa = q.coa) ∧ (r.dt ≠ τ' → r.coa < q.coa) := by
      intro r hr
      obtain ⟨p, hp, h3, h4⟩ := hvals r hr
      constructor
      · intro h5
        have h6 : p = (τ', q) := by
          have h7 : p.1 = τ' := by rw [h3, h5]
          by_contra hne
          rcases pairwise_or hCsort hp hqS with h8 | h8 | h8
          · exact hne h8
          · simp only at h8; linarith
          · simp only at h8; linarith
        rw [← h4, h6]
      · intro h5
        rw [← h4]
        refine hdom' p hp ?_ (by rw [h3]; exact h5)
        rw [h3]; exact hwin r hr
    have hfirst : ∀ pre r post, rows = pre ++ r :: post → (∀ y ∈ pre, y.coa < r.coa) →
        (∀ y ∈ post, y.coa ≤ r.coa) → r.dt = τ' := by
      intro pre r post hsp h3 h4
      by_contra hne
      have hrm : r ∈ rows := by rw [hsp]; simp
      have h6 := (hcoa r hrm).2 hne
      obtain ⟨r0, hr0, h7⟩ := hmem
      have h8 := (hcoa r0 hr0).1 h7
      rw [hsp, List.mem_append, List.mem_cons] at hr0
      rcases hr0 with h9 | h9 | h9
      · have := h3 r0 h9; linarith
      · subst h9; linarith
      · have := h4 r0 h9; linarith
    constructor
    · rintro ⟨rows', map', ho, ⟨pre, r, post, hsp, h3, h4, h5⟩, -⟩
      rw [hout] at ho
      cases ho
      rw [← h5]
      exact hfirst pre r post hsp h3 h4
    · rintro rfl
      obtain ⟨r0, hr0, -⟩ := hmem
      obtain ⟨r, hr⟩ := firstMaxBy_isSome Locate.Row.coa (List.ne_nil_of_mem hr0)
      obtain ⟨pre, post, hsp, h3, h4⟩ := firstMaxBy_spec hr
      exact ⟨rows, map, hout, ⟨pre, r, post, hsp, h3, h4, hfirst pre r post hsp h3 h4⟩, by rw [hxt]; exact hnear⟩
  refine ⟨hcomp, ?_, ?_⟩
  · have hmem : ((⟨uid τ, τ⟩ : Locate.Trig), τ') ∈ (Locate.locateEvents mw outcome later trigs).written := by
      refine hall _ ?_ τ' ((hloc _ rfl τ').mpr rfl)
      rw [htrigs]
      exact List.mem_map.mpr ⟨ev, hevr, by rw [toTrig, hev2]⟩
    have honly : ∀ w ∈ (Locate.locateEvents mw outcome later trigs).written,
        u ≤ w.1.time ∧ w.1.time ≤ v ∨ u ≤ w.2 ∧ w.2 ≤ v → w = ((⟨uid τ, τ⟩ : Locate.Trig), τ') := by
      rintro ⟨x, o⟩ hw hor
      have hl := hwr x o hw
      have hxm : x ∈ trigs := hsub.subset (List.mem_map_of_mem hw)
      rw [htrigs] at hxm
      obtain ⟨c, hc, rfl⟩ := List.mem_map.mp hxm
      have hc' : u ≤ c.coaTime ∧ c.coaTime ≤ v := by
        rcases hor with h3 | ⟨h3, h4⟩
        · exact h3
        by_contra hn
        obtain ⟨rows, map, -, -, h5⟩ := hl
        rw [abs_lt] at h5
        simp only [toTrig] at h5 h3 h4
        rcases hfar c hc hn with h6 | h6 <;> linarith [h5.1, h5.2]
      have hce := hone c hc hc'.1 hc'.2
      have ht : toTrig uid c = ⟨uid τ, τ⟩ := by rw [toTrig, hce, hev2]
      rw [ht] at hl ⊢
      rw [(hloc _ rfl o).mp hl]
    have hpw2 : (Locate.locateEvents mw outcome later trigs).written.Pairwise
        (fun a b => a.1.time < b.1.time) := by
      have : ((Locate.locateEvents mw outcome later trigs).written.map Prod.fst).Pairwise
          (fun a b => a.time < b.time) := by
        refine List.Pairwise.sublist hsub ?_
        rw [htrigs, List.pairwise_map]
        exact hsort
      rwa [List.pairwise_map] at this
    have hmemf : ((⟨uid τ, τ⟩ : Locate.Trig), τ') ∈ (Locate.locateEvents mw outcome later trigs).written.filter
        (fun w => decide (u ≤ w.1.time ∧ w.1.time ≤ v ∨ u ≤ w.2 ∧ w.2 ≤ v)) := List.mem_filter.mpr ⟨hmem, by simp [hlo, hhi]⟩
    have hpf := hpw2.sublist (List.filter_sublist (p := fun w => decide (u ≤ w.1.time ∧ w.1.time ≤ v ∨ u ≤ w.2 ∧ w.2 ≤ v)))
    have hallf : ∀ w ∈ (Locate.locateEvents mw outcome later trigs).written.filter
        (fun w => decide (u ≤ w.1.time ∧ w.1.time ≤ v ∨ u ≤ w.2 ∧ w.2 ≤ v)), w = ((⟨uid τ, τ⟩ : Locate.Trig), τ') := by
      intro w hw
      rw [List.mem_filter, decide_eq_true_eq] at hw
      exact honly w hw.1 hw.2
    generalize (Locate.locateEvents mw outcome later trigs).written.filter
        (fun w => decide (u ≤ w.1.time ∧ w.1.time ≤ v ∨ u ≤ w.2 ∧ w.2 ≤ v)) = L at *
    match L with
    | [] => simp at hmemf
    | [y] => rw [hallf y (by simp)]
    | y :: z :: L =>
      have h6 := (List.pairwise_cons.mp hpf).1 z (by simp)
      rw [hallf y (by simp), hallf z (by simp)] at h6
      exact absurd h6 (lt_irrefl _)
  · intro w hw
    have hxm : w.1 ∈ trigs := hsub.subset (List.mem_map_of_mem hw)
    rw [htrigs] at hxm
    obtain ⟨c, hc, h3⟩ := List.mem_map.mp hxm
    exact ⟨c, hc, by rw [← h3]; rfl⟩

/-- **C115** (partial).  `detect` into a new run, `trigger` with a static threshold and `locate` over a part of the
period scanned: for every clear, isolated burst of coalescence inside the region exactly one event is located with
its trigger time or its origin time in the burst; it was triggered at, and has as origin time, the largest sample of the
burst; and every located event was triggered at a sample above the threshold.  Missing: as for C113; and locate's window must get the coalescence that detect computed (C114 shows when it does), which must be
largest at `τ` also when the trigger value is the normalised coalescence. -/
theorem C115_burst_located_once_partial {σ : Type} (sr : ℕ) (k : Call) (h : Spec.GoodCall sr k)
    (hclean : Spec.Clean k) (halive : k.killed = .never) (hucf : 0 < k.cfg.ucf)
    (hpos : ∀ p ∈ Spec.computed k, 0 ≤ p.2.coa ∧ 0 ≤ p.2.coaN) (jul : ℤ → ℕ)
    (hjul : ∀ d, jul d ≠ jul (d + 1)) (order : Availability.Table → List ℤ) (cfg : Trigger.Cfg)
    (hmw : 0 < cfg.mw) (hmei : 2 * cfg.mw ≤ cfg.mei) (n : ℕ) (hn : 2 * cfg.mw * sr = n) (t : ℚ)
    (region : Option Region) (pad s e : ℚ)
    (hpad : ∃ i : ℕ, pad = i / (sr : ℚ)) (hs : ∃ i : ℤ, s = i / (sr : ℚ)) (he : ∃ i : ℤ, e = i / (sr : ℚ))
    (hfrom : k.start ≤ s) (hto : e ≤ k.start + k.cfg.timestep * (Spec.steps k : ℚ))
    (u v τ : ℚ) (q : Sample)
    (hb : Spec.ClearBurst cfg.norm t (cfg.mei + cfg.mw) (Spec.computed k) u v τ q)
    (hlong : v - u ≤ pad) (h1 : s ≤ τ) (h2 : τ < e) (hx : |q.x| ≤ 2147) (hy : |q.y| ≤ 2147)
    (hz : |q.z * (1000 * k.cfg.ucf)| ≤ 2 ^ 31 - 1) (hreg : Spec.WellInside k.cfg.ucf region q)
    (hdom : cfg.norm = true → ∀ p ∈ Spec.computed k, |p.1 - τ| ≤ 2 * cfg.mw → p.1 ≠ τ → p.2.coa < q.coa)
    (events : TriggerFiles.Files) (hfresh : ∀ d, dayNum s ≤ d → events d = none) (uid : ℚ → ℕ)
    (outcome : Locate.Trig → Locate.Outcome σ) (later : Locate.Trig → Locate.Later)
    (hfine : Spec.NothingFails (Spec.computed k) outcome later)
    (hsame : Spec.Recomputes outcome (Spec.computed k) cfg.mw sr τ) :
    ∃ r, pipeline jul order Spec.newDir k cfg (.static t) id region pad events uid outcome later s e = .located r ∧
      r.completed = true ∧
      r.written.filter (fun w => decide (u ≤ w.1.time ∧ w.1.time ≤ v ∨ u ≤ w.2 ∧ w.2 ≤ v)) =
        [(⟨uid τ, τ⟩, τ)] ∧
      ∀ w ∈ r.written, ∃ p ∈ Spec.computed k, p.1 = w.1.time ∧ t - 1 / 200000 ≤ Spec.level cfg.norm p.2 := by
  have hse : s ≤ e := by linarith
  have hsr' : (0 : ℚ) < sr := by exact_mod_cast h.rate_pos
  obtain ⟨res, hdt, ev, hev1, hev2, -⟩ := C113_detect_then_trigger_partial sr k h hclean halive hucf hpos jul hjul
    order cfg hmw.le (by linarith) t region pad s e hpad hs he hfrom hto u v τ q hb hlong h1 h2 hx hy hz hreg
  obtain ⟨dir, read', hdir, htrig, hok, hreads, hdelta, hDsort, hCsort, -⟩ := detect_read h hclean halive jul
    hjul order cfg (.static t) id region pad s e hpad hs he hfrom hto hse
  have hres' : res = (trigger cfg (.static t) id region read' s e).1 := by
    unfold detectTrigger at hdt
    rw [hdir] at hdt
    simp only [Option.some.injEq] at hdt
    rw [← htrig, hdt]
  -- events of the run are in order of time
  obtain ⟨hpw, -⟩ := C13_no_event_twice cfg (.static t) id region read' s e hse
    (fun a b sd h => (hreads a b sd h).2)
  have hbt : ∀ p ∈ res, ∃ sd, read' p.1.1 p.1.2 = some sd ∧
      p.2 = (triggerBatch cfg (.static t) id region p.1.1 p.1.2 sd).1 := by
    rw [hres']
    unfold trigger
    rw [if_neg (not_lt.mpr hse)]
    exact (runBatches_prefix cfg (.static t) id region read' (batches s e)).2.2.2
  have hsort : (res.flatMap Prod.snd).Pairwise (fun x y => x.coaTime < y.coaTime) := by
    rw [List.pairwise_flatMap]
    refine ⟨?_, by rw [hres']; exact hpw⟩
    intro p hp
    obtain ⟨sd, h3, h4⟩ := hbt p hp
    rw [h4]
    refine (C10_reported_events_separated cfg (.static t) id region _ _ sd hmw.le ?_).imp
      (fun h => by linarith)
    rw [id, (hreads _ _ _ h3).1]
    exact hDsort.sublist List.filter_sublist
  have hevr : ev ∈ res.flatMap Prod.snd := by
    have : ev ∈ (res.flatMap Prod.snd).filter (fun x => decide (u ≤ x.coaTime ∧ x.coaTime ≤ v)) := by
      rw [hev1]; simp
    exact (List.mem_filter.mp this).1
  have hone : ∀ x ∈ res.flatMap Prod.snd, u ≤ x.coaTime → x.coaTime ≤ v → x = ev := by
    intro x hx h3 h4
    have : x ∈ (res.flatMap Prod.snd).filter (fun x => decide (u ≤ x.coaTime ∧ x.coaTime ≤ v)) :=
      List.mem_filter.mpr ⟨hx, by simp [h3, h4]⟩
    rw [hev1] at this
    simpa using this
  have habove := reported_above h hclean halive hpos jul hjul order cfg hmw.le t region pad s e hpad hs he hfrom hto
    hse res hdt
  -- a reported event outside of the burst is more than a marginal window away
  have hfar : ∀ x ∈ res.flatMap Prod.snd, ¬ (u ≤ x.coaTime ∧ x.coaTime ≤ v) →
      x.coaTime + (cfg.mei + cfg.mw) < u ∨ v + (cfg.mei + cfg.mw) < x.coaTime := by
    intro x hx hn
    obtain ⟨p, hp, h6, h5⟩ := habove x hx
    rw [← h6] at hn ⊢
    by_cases h7 : p.1 < u
    · exact Or.inl (hb.before p hp h7 h5).1
    · exact Or.inr (hb.after p hp (by by_contra h8; exact hn ⟨not_lt.mp h7, not_lt.mp h8⟩) h5).1
  have hdom' : ∀ p ∈ Spec.computed k, |p.1 - τ| ≤ 2 * cfg.mw → p.1 ≠ τ → p.2.coa < q.coa := by
    cases hnorm : cfg.norm with
    | true => exact hdom hnorm
    | false =>
      rw [hnorm] at hb
      exact clear_dominates hb (by linarith)
  obtain ⟨hcomp, hfil, hwr⟩ := located_once h.rate_pos hmw (by linarith : cfg.mw ≤ cfg.mei + cfg.mw) n hn hCsort hsort
    hb.mem ⟨0, by simp⟩ (by simpa using hmw) hevr hev2 hb.lo hb.hi hone hfar
    (fun x hx => by obtain ⟨p, hp, h3, -⟩ := habove x hx; exact ⟨p, hp, h3⟩) hdom' uid outcome later hfine hsame
  refine ⟨_, ?_, hcomp, hfil, ?_⟩
  · exact pipeline_eq h.rate_pos jul order k h.rate cfg _ _ region pad s e hse events hfresh uid outcome later res hdt
      (List.ne_nil_of_mem hevr)
  · intro w hw
    obtain ⟨c, hc, h3⟩ := hwr w hw
    obtain ⟨p, hp, h4, h5⟩ := habove c hc
    exact ⟨p, hp, by rw [h4, h3], h5⟩

/-! ## A concrete case -/

/-- Locate recomputes the burst at midnight of `burstCall`, and has no data for other events. -/
def burstOutcome : Locate.Trig → Locate.Outcome ℚ := fun x =>
  if x.time = 86399 then .computed [⟨86397, 1, 0⟩, ⟨86398, 1, 0⟩, ⟨86399, 5, 0⟩, ⟨86400, 4, 0⟩, ⟨86401, 1, 0⟩] []
  else .archiveEmpty

theorem burstCall_clean : Spec.Clean burstCall := by
  intro i _
  simp only [burstCall]
  split
  · simp
  split
  · simp
  split
  · simp
  · simp

/-- All hypotheses of `C115_burst_located_once_partial` hold for it. -/
example (jul : ℤ → ℕ) (hjul : ∀ d, jul d ≠ jul (d + 1)) (order : Availability.Table → List ℤ) (uid : ℚ → ℕ) :
    ∃ r, pipeline jul order Spec.newDir burstCall ⟨1, 2, true⟩ (.static 2) id (some ⟨9, 19, 0, 11, 21, 2⟩) 2
        (fun _ => none) uid burstOutcome (fun _ => .fine) 86392 86408 = .located r ∧ r.completed = true ∧
      r.written.filter (fun w => decide (86399 ≤ w.1.time ∧ w.1.time ≤ 86400 ∨ 86399 ≤ w.2 ∧ w.2 ≤ 86400)) =
        [(⟨uid 86399, 86399⟩, 86399)] ∧
      ∀ w ∈ r.written, ∃ p ∈ Spec.computed burstCall, p.1 = w.1.time ∧ 2 - 1 / 200000 ≤ Spec.level true p.2 :=
  C115_burst_located_once_partial 1 burstCall burstCall_good burstCall_clean rfl
    (by norm_num [burstCall, exDetCfg2]) (by decide +kernel) jul hjul order ⟨1, 2, true⟩ (by norm_num) (by norm_num)
    2 (by norm_num) 2 (some ⟨9, 19, 0, 11, 21, 2⟩) 2 86392 86408 ⟨2, by norm_num⟩ ⟨86392, by norm_num⟩
    ⟨86408, by norm_num⟩ (by norm_num [burstCall]) (by decide +kernel) 86399 86400 86399 ⟨5, 4, 10, 20, 1⟩
    burstCall_clear (by norm_num) (by norm_num) (by norm_num) (by norm_num) (by norm_num)
    (by norm_num [burstCall, exDetCfg2])
    (by intro r hr; rw [Option.some.injEq] at hr; subst hr; norm_num [burstCall, exDetCfg2])
    (fun _ => by decide +kernel) _ (fun _ _ => rfl) uid burstOutcome _
    (fun x _ => ⟨rfl, by unfold burstOutcome; split <;> simp, by intro m; unfold burstOutcome; split <;> simp⟩)
    (fun x hx => ⟨_, _, by unfold burstOutcome; rw [if_pos hx], by decide +kernel, by decide +kernel⟩)

/-! ## What is false -/

/-- A burst of normalised coalescence at 86405; two seconds later the coalescence is larger, but not the normalised
coalescence. -/
def loudCall : Call :=
  ⟨exDetCfg2, 86400, 86410, fun w =>
    if w.1 + exDetCfg2.prePad = 86404 then .ok [⟨1, 1, 0, 0, 0⟩, ⟨5, 4, 10, 20, 1⟩] (fun _ => 1)
    else if w.1 + exDetCfg2.prePad = 86406 then .ok [⟨1, 1, 0, 0, 0⟩, ⟨6, 1, 0, 0, 0⟩] (fun _ => 1)
    else .ok [⟨1, 1, 0, 0, 0⟩, ⟨1, 1, 0, 0, 0⟩] (fun _ => 1), false, .never⟩

def loudOutcome : Locate.Trig → Locate.Outcome ℚ := fun x =>
  if x.time = 86405 then .computed [⟨86403, 1, 0⟩, ⟨86404, 1, 0⟩, ⟨86405, 5, 0⟩, ⟨86406, 1, 0⟩, ⟨86407, 6, 0⟩] []
  else .archiveEmpty

theorem loudCall_good : Spec.GoodCall 1 loudCall := by
  refine ⟨rfl, by norm_num, ⟨2, by norm_num, by norm_num [loudCall, exDetCfg2], ?_⟩,
    by norm_num [loudCall, exDetCfg2], ⟨86400, by simp [loudCall]⟩, by decide +kernel⟩
  intro w data avail hw
  simp only [loudCall] at hw
  split at hw
  · simp only [Detect.Outcome.ok.injEq] at hw; rw [← hw.1]; rfl
  split at hw
  · simp only [Detect.Outcome.ok.injEq] at hw; rw [← hw.1]; rfl
  · simp only [Detect.Outcome.ok.injEq] at hw; rw [← hw.1]; rfl

theorem loudCall_clear :
    Spec.ClearBurst true 2 (2 + 1) (Spec.computed loudCall) 86405 86405 86405 ⟨5, 4, 10, 20, 1⟩ :=
  ⟨by decide +kernel, by norm_num, by norm_num, by norm_num, by norm_num, by decide +kernel,
    by decide +kernel, by decide +kernel, by decide +kernel⟩

/-- **C115**, violated when triggering on normalised coalescence, the default: the event of a clear, isolated burst is
triggered, and locate gets its data and computes the same coalescence, but writes nothing for it and completes without
an error, because the coalescence before normalisation is larger elsewhere in its window. -/
theorem C115_violated_normalised (jul : ℤ → ℕ) (hjul : ∀ d, jul d ≠ jul (d + 1))
    (order : Availability.Table → List ℤ) (uid : ℚ → ℕ) :
    Spec.ClearBurst true 2 (2 + 1) (Spec.computed loudCall) 86405 86405 86405 ⟨5, 4, 10, 20, 1⟩ ∧
    Spec.Recomputes loudOutcome (Spec.computed loudCall) 1 1 86405 ∧
    Spec.NothingFails (Spec.computed loudCall) loudOutcome (fun _ => .fine) ∧
    (∃ res, detectTrigger jul order Spec.newDir loudCall ⟨1, 2, true⟩ (.static 2) id none 2 86400 86410 =
      some (res, none) ∧ ∃ ev ∈ res.flatMap Prod.snd, ev.coaTime = 86405) ∧
    pipeline jul order Spec.newDir loudCall ⟨1, 2, true⟩ (.static 2) id none 2 (fun _ => none) uid loudOutcome
      (fun _ => .fine) 86400 86410 = .located ⟨[], true⟩ := by
  have hclean : Spec.Clean loudCall := by
    intro i _
    simp only [loudCall]
    split
    · simp
    split
    · simp
    · simp
  have hre : Spec.Recomputes loudOutcome (Spec.computed loudCall) 1 1 86405 :=
    fun x hx => ⟨_, _, by unfold loudOutcome; rw [if_pos hx], by decide +kernel, by decide +kernel⟩
  have hnf : Spec.NothingFails (Spec.computed loudCall) loudOutcome (fun _ => .fine) :=
    fun x _ => ⟨rfl, by unfold loudOutcome; split <;> simp, by intro m; unfold loudOutcome; split <;> simp⟩
  obtain ⟨res, h1, ev, h2, h3, -⟩ := C113_detect_then_trigger_partial 1 loudCall loudCall_good
    hclean rfl (by norm_num [loudCall, exDetCfg2]) (by decide +kernel) jul hjul order
    ⟨1, 2, true⟩ (by norm_num) (by norm_num) 2 none 2 86400 86410 ⟨2, by norm_num⟩
    ⟨86400, by norm_num⟩ ⟨86410, by norm_num⟩ (by norm_num [loudCall]) (by decide +kernel) 86405 86405 86405
    ⟨5, 4, 10, 20, 1⟩ loudCall_clear (by norm_num) (by norm_num) (by norm_num) (by norm_num) (by norm_num)
    (by norm_num [loudCall, exDetCfg2]) (by intro r hr; simp at hr)
  have hev : ev ∈ res.flatMap Prod.snd := by
    have : ev ∈ (res.flatMap Prod.snd).filter (fun x => decide (86405 ≤ x.coaTime ∧ x.coaTime ≤ 86405)) := by
      rw [h2]; simp
    exact (List.mem_filter.mp this).1
  refine ⟨loudCall_clear, hre, hnf, ⟨res, h1, ev, hev, h3⟩, ?_⟩
  rw [pipeline_eq (sr := 1) (by norm_num) jul order loudCall rfl ⟨1, 2, true⟩ _ _ none 2 86400 86410 (by norm_num)
    (fun _ => none) (fun _ _ => rfl) uid loudOutcome (fun _ => .fine) res h1 (List.ne_nil_of_mem hev)]
  congr 1
  generalize (res.flatMap Prod.snd).map (toTrig uid) = l
  induction l with
  | nil => rfl
  | cons x l ih =>
    by_cases hx : x.time = 86405
    · have ho : loudOutcome x = .computed [⟨86403, 1, 0⟩, ⟨86404, 1, 0⟩, ⟨86405, 5, 0⟩, ⟨86406, 1, 0⟩,
          ⟨86407, 6, 0⟩] [] := by unfold loudOutcome; rw [if_pos hx]
      have ha : Locate.addComputeOutput (σ := ℚ) [⟨86403, 1, 0⟩, ⟨86404, 1, 0⟩, ⟨86405, 5, 0⟩, ⟨86406, 1, 0⟩,
          ⟨86407, 6, 0⟩] [] = some ⟨[⟨86403, 1, 0⟩, ⟨86404, 1, 0⟩, ⟨86405, 5, 0⟩, ⟨86406, 1, 0⟩,
          ⟨86407, 6, 0⟩], [], 86407⟩ := by
        have : Locate.maxRow [⟨86403, 1, 0⟩, ⟨86404, 1, 0⟩, ⟨86405, 5, 0⟩, ⟨86406, 1, 0⟩, ⟨86407, 6, 0⟩] =
          some ⟨86407, 6, 0⟩ := by decide +kernel
        unfold Locate.addComputeOutput
        rw [this]; rfl
      have hw : Locate.inMarginalWindow x.time 86407 1 = false := by rw [hx]; decide +kernel
      simp only [Locate.locateEvents, ho, ha, hw]
      exact ih
    · have ho : loudOutcome x = .archiveEmpty := by unfold loudOutcome; rw [if_neg hx]
      simp only [Locate.locateEvents, ho]
      exact ih

end QM
