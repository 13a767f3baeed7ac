import Verif.Props.Midnight

/-!
# A burst of coalescence is reported once (C112)
-/

namespace QM

open QM.Trigger QM.Spec

/-! ## Specification -/

/-- The samples of `D` from time `u` to time `v` are at or above the threshold `t`, with `q` the first of largest
COA; any other sample at or above it is more than `gap` away, with one below in between. -/
structure Spec.IsolatedBurst (norm : Bool) (t gap : ℚ) (D : List Row) (u v : ℚ) (q : Row) : Prop where
  mem : q ∈ D
  lo : u ≤ q.dt
  hi : q.dt ≤ v
  above : ∀ r ∈ D, u ≤ r.dt → r.dt ≤ v → t ≤ trigValue norm r
  max : ∀ r ∈ D, u ≤ r.dt → r.dt ≤ v → r.coa ≤ q.coa
  first : ∀ r ∈ D, u ≤ r.dt → r.dt < q.dt → r.coa < q.coa
  after : ∀ r ∈ D, v < r.dt → t ≤ trigValue norm r →
    v + gap < r.dt ∧ ∃ b ∈ D, v < b.dt ∧ b.dt < r.dt ∧ trigValue norm b < t
  before : ∀ r ∈ D, r.dt < u → t ≤ trigValue norm r →
    r.dt + gap < u ∧ ∃ b ∈ D, r.dt < b.dt ∧ b.dt < u ∧ trigValue norm b < t

/-- A sample lies in the closed box, or there is none. -/
def Spec.RowIn (region : Option Region) (q : Row) : Prop :=
  ∀ r, region = some r → (r.xmin ≤ q.x ∧ q.x ≤ r.xmax) ∧ (r.ymin ≤ q.y ∧ q.y ≤ r.ymax) ∧
    (r.zmin ≤ q.z ∧ q.z ≤ r.zmax)

/-! ## Candidates of a window -/

/-- What is known of a candidate of a window. -/
structure CandFacts (cfg : Trigger.Cfg) (t : ℚ) (W : List Row) (c : Cand) (first last p : Row) : Prop where
  peak : PeakIn cfg.norm t W p
  first_mem : first ∈ W
  last_mem : last ∈ W
  lo : first.dt ≤ p.dt
  hi : p.dt ≤ last.dt
  all : ∀ r ∈ W, first.dt ≤ r.dt → r.dt ≤ last.dt → t ≤ trigValue cfg.norm r
  time : c.coaTime = p.dt
  trig : c.trigCoa = trigValue cfg.norm p
  x : c.x = p.x
  y : c.y = p.y
  z : c.z = p.z
  coa : c.coa = p.coa
  coaN : c.coaN = p.coaN
  minTime : first.dt - cfg.mei ≤ c.minTime
  maxTime : c.maxTime ≤ last.dt + cfg.mei

theorem cand_facts (cfg : Trigger.Cfg) (hmw : 0 ≤ cfg.mw) (t sr : ℚ) (W : List Row)
    (hW : W.Pairwise (fun r s => r.dt < s.dt)) {c : Cand} (hc : c ∈ staticCands cfg t sr W) :
    ∃ first last p, CandFacts cfg t W c first last p := by
  obtain ⟨p0, hp0, hp1, -⟩ := peak_of_cand cfg t sr W hW hc
  obtain ⟨runs, hruns, -, hf⟩ := C08_candidates_are_maximal_runs cfg W
    (getThreshold (.static t) (W.map (Row.trig cfg.norm)) sr)
  obtain ⟨⟨a, b⟩, hab, k, pk, fi, la, hp, hfi, hla, h1, h2, h3, h4, h5, h6, h7, h8, h9, h10, h11⟩ :=
    forall₂_exists_right hf hc
  have hrun := (hruns a b).mp hab
  have hpe : p0 = pk := by
    rcases pairwise_or hW hp0.mem (List.mem_of_getElem? hp.at_p) with h | h | h
    · exact h
    · rw [hp1] at h1; linarith
    · rw [hp1] at h1; linarith
  subst hpe
  have hfp : fi.dt ≤ p0.dt := (dt_le_iff hW hfi hp.at_p).mp hp.lo
  have hpl : p0.dt ≤ la.dt := (dt_le_iff hW hp.at_p hla).mp hp.hi
  refine ⟨fi, la, p0, hp0, List.mem_of_getElem? hfi, List.mem_of_getElem? hla, hfp, hpl, ?_, h1, h2, h3,
    h4, h5, h6, h7, ?_, ?_⟩
  · intro r hr hr1 hr2
    obtain ⟨j, hj⟩ := List.mem_iff_getElem?.mp hr
    have hja : a ≤ j := (dt_le_iff hW hfi hj).mpr hr1
    have hjb : j ≤ b := (dt_le_iff hW hj hla).mpr hr2
    obtain ⟨r', h12, h13⟩ := (above_static cfg.norm t sr W j).mp (hrun.all j hja hjb)
    rw [hj, Option.some.injEq] at h12
    rw [h12]; exact h13
  · rcases lt_or_ge (p0.dt - fi.dt) cfg.mw with h | h
    · rw [h8 h]; linarith
    · rw [h9 h]; linarith
  · rcases lt_or_ge (la.dt - p0.dt) cfg.mw with h | h
    · rw [h10 h]; linarith
    · rw [h11 h]; linarith

section
variable {cfg : Trigger.Cfg} {t : ℚ} {D : List Row} {u v a b : ℚ} {q : Row}

/-- A run of a window is in the burst, before it, or after it. -/
theorem run_cases (hb : Spec.IsolatedBurst cfg.norm t (cfg.mei + cfg.mw) D u v q) {c : Cand}
    {first last p : Row} (hc : CandFacts cfg t (win D a b) c first last p) :
    (u ≤ first.dt ∧ last.dt ≤ v) ∨ last.dt + (cfg.mei + cfg.mw) < u ∨
      v + (cfg.mei + cfg.mw) < first.dt := by
  have hfD := mem_win.mp hc.first_mem
  have hlD := mem_win.mp hc.last_mem
  have hfl : first.dt ≤ last.dt := hc.lo.trans hc.hi
  have hfa := hc.all first hc.first_mem le_rfl hfl
  have hla := hc.all last hc.last_mem hfl le_rfl
  by_cases h1 : v < first.dt
  · exact Or.inr (Or.inr (hb.after first hfD.1 h1 hfa).1)
  by_cases h2 : last.dt < u
  · exact Or.inr (Or.inl (hb.before last hlD.1 h2 hla).1)
  push Not at h1 h2
  left
  constructor
  · by_contra hn
    push Not at hn
    obtain ⟨-, r, hr, hr1, hr2, hr3⟩ := hb.before first hfD.1 hn hfa
    have := hc.all r (mem_win.mpr ⟨hr, by linarith, by linarith⟩) (by linarith) (by linarith)
    linarith
  · by_contra hn
    push Not at hn
    obtain ⟨-, r, hr, hr1, hr2, hr3⟩ := hb.after last hlD.1 hn hla
    have := hc.all r (mem_win.mpr ⟨hr, by linarith, by linarith⟩) (by linarith) (by linarith)
    linarith

/-- The peak of a run in the burst, if the window has all of the burst. -/
theorem run_peak (hD : D.Pairwise (fun r s => r.dt < s.dt))
    (hb : Spec.IsolatedBurst cfg.norm t (cfg.mei + cfg.mw) D u v q) (ha : a ≤ u) (hv : v ≤ b) {p : Row}
    (hp : PeakIn cfg.norm t (win D a b) p) (h1 : u ≤ p.dt) (h2 : p.dt ≤ v) : p = q := by
  have hpD := mem_win.mp hp.mem
  have hqW : q ∈ win D a b := mem_win.mpr ⟨hb.mem, by linarith [hb.lo], by linarith [hb.hi]⟩
  have hl : Linked cfg.norm t (win D a b) p q := by
    intro r hr hr1 hr2
    refine hb.above r (mem_win.mp hr).1 ?_ ?_
    · rcases hr1 with h | h
      · linarith
      · linarith [hb.lo]
    · rcases hr2 with h | h
      · linarith
      · linarith [hb.hi]
  have h3 := hp.max q hqW hl
  have h4 := hb.max p hpD.1 h1 h2
  rcases pairwise_or hD hpD.1 hb.mem with h | h | h
  · exact h
  · have := hb.first p hpD.1 h1 h; linarith
  · have := hp.first q hqW hl h; linarith

/-- In a window with all of the burst, exactly its own candidate has it, and it is an event by itself. -/
theorem burst_event (hmw : 0 ≤ cfg.mw) (hmei : 0 ≤ cfg.mei) (sr : ℚ) (hD : D.Pairwise (fun r s => r.dt < s.dt))
    (hb : Spec.IsolatedBurst cfg.norm t (cfg.mei + cfg.mw) D u v q) (ha : a ≤ u) (hv : v ≤ b) :
    (∀ e ∈ refineCandidates cfg (staticCands cfg t sr (win D a b)), u ≤ e.coaTime → e.coaTime ≤ v →
      e.coaTime = q.dt ∧ e.trigCoa = trigValue cfg.norm q ∧ e.x = q.x ∧ e.y = q.y ∧ e.z = q.z ∧
        e.coa = q.coa ∧ e.coaN = q.coaN ∧ u - cfg.mei ≤ e.minTime ∧ e.maxTime ≤ v + cfg.mei) ∧
    ∃ e ∈ refineCandidates cfg (staticCands cfg t sr (win D a b)), e.coaTime = q.dt := by
  have hW : (win D a b).Pairwise (fun r s => r.dt < s.dt) := hD.sublist List.filter_sublist
  have hqW : q ∈ win D a b := mem_win.mpr ⟨hb.mem, by linarith [hb.lo], by linarith [hb.hi]⟩
  obtain ⟨-, hsorted⟩ := identify_sorted cfg (win D a b)
    (getThreshold (.static t) ((win D a b).map (Row.trig cfg.norm)) sr) hW
  obtain ⟨hfl, hne, hchain, -⟩ := mergedGroups_spec cfg (staticCands cfg t sr (win D a b))
  have hor := refine_forall₂ cfg (staticCands cfg t sr (win D a b))
  -- two candidates, one in the burst, are apart
  have hapart : ∀ c ∈ staticCands cfg t sr (win D a b), ∀ d ∈ staticCands cfg t sr (win D a b),
      c.coaTime < d.coaTime → (u ≤ c.coaTime ∧ c.coaTime ≤ v ∨ u ≤ d.coaTime ∧ d.coaTime ≤ v) →
      Apart cfg.mw c d := by
    intro c hc d hd hlt hin
    obtain ⟨f1, l1, p1, hc1⟩ := cand_facts cfg hmw t sr _ hW hc
    obtain ⟨f2, l2, p2, hc2⟩ := cand_facts cfg hmw t sr _ hW hd
    have t1 := hc1.time
    have t2 := hc2.time
    have a1 := hc1.lo
    have a2 := hc1.hi
    have a3 := hc2.lo
    have a4 := hc2.hi
    have m1 := hc1.maxTime
    have m2 := hc2.minTime
    have key : ∀ {c' : Cand} {f l p : Row}, CandFacts cfg t (win D a b) c' f l p →
        u ≤ c'.coaTime → c'.coaTime ≤ v → p = q ∧ u ≤ f.dt ∧ l.dt ≤ v := by
      intro c' f l p hc' h1 h2
      have h3 := hc'.time
      have h4 := hc'.lo
      have h5 := hc'.hi
      have hq := run_peak hD hb ha hv hc'.peak (by linarith) (by linarith)
      refine ⟨hq, ?_⟩
      have hfD := mem_win.mp hc'.first_mem
      have hlD := mem_win.mp hc'.last_mem
      have hfa := hc'.all f hc'.first_mem le_rfl (h4.trans h5)
      have hla := hc'.all l hc'.last_mem (h4.trans h5) le_rfl
      constructor
      · by_contra hn
        push Not at hn
        obtain ⟨-, r, hr, hr1, hr2, hr3⟩ := hb.before f hfD.1 hn hfa
        have := hc'.all r (mem_win.mpr ⟨hr, by linarith, by linarith⟩) (by linarith) (by linarith)
        linarith
      · by_contra hn
        push Not at hn
        obtain ⟨-, r, hr, hr1, hr2, hr3⟩ := hb.after l hlD.1 hn hla
        have := hc'.all r (mem_win.mpr ⟨hr, by linarith, by linarith⟩) (by linarith) (by linarith)
        linarith
    rcases hin with ⟨h1, h2⟩ | ⟨h1, h2⟩
    · obtain ⟨e1, e2, e3⟩ := key hc1 h1 h2
      rcases run_cases hb hc2 with ⟨h3, h4⟩ | h3 | h3
      · have := (key hc2 (by linarith) (by linarith)).1
        rw [this, ← e1] at t2
        linarith
      · have := hb.lo; have := hb.hi
        linarith
      · exact ⟨by linarith, by linarith⟩
    · obtain ⟨e1, e2, e3⟩ := key hc2 h1 h2
      rcases run_cases hb hc1 with ⟨h3, h4⟩ | h3 | h3
      · have := (key hc1 (by linarith) (by linarith)).1
        rw [this, ← e1] at t1
        linarith
      · exact ⟨by linarith, by linarith⟩
      · linarith
  -- so a group with a candidate in the burst has no other
  have hsing : ∀ g ∈ mergedGroups cfg (staticCands cfg t sr (win D a b)), ∀ c ∈ g,
      u ≤ c.coaTime → c.coaTime ≤ v → g = [c] := by
    intro g hg c hc h1 h2
    have hgm : ∀ x ∈ g, x ∈ staticCands cfg t sr (win D a b) := by
      intro x hx
      rw [← hfl]
      exact List.mem_flatten.mpr ⟨g, hg, hx⟩
    have hgs : g.Pairwise (fun c d => c.coaTime < d.coaTime) := by
      refine List.Pairwise.sublist ?_ hsorted
      have := List.sublist_flatten_of_mem hg
      rwa [hfl] at this
    have hch := hchain g hg
    obtain ⟨pre, post, rfl⟩ := List.append_of_mem hc
    have hpost : post = [] := by
      cases post with
      | nil => rfl
      | cons d post =>
        exfalso
        have h3 := (List.isChain_append.mp hch).2.1
        rw [List.isChain_cons_cons] at h3
        have h4 := (List.pairwise_append.mp hgs).2.1
        rw [List.pairwise_cons] at h4
        exact h3.1 (hapart c (hgm c (by simp)) d (hgm d (by simp)) (h4.1 d (by simp)) (Or.inl ⟨h1, h2⟩))
    have hpre : pre = [] := by
      rcases List.eq_nil_or_concat pre with h | ⟨l, d, h⟩
      · exact h
      · exfalso
        subst h
        have h3 := (List.isChain_append.mp hch).2.2 d (by simp) c (by simp)
        have h4 := (List.pairwise_append.mp hgs).2.2 d (by simp) c (by simp)
        exact h3 (hapart d (hgm d (by simp)) c (hgm c (by simp)) h4 (Or.inr ⟨h1, h2⟩))
    rw [hpost, hpre]; rfl
  have hin : ∀ g ∈ mergedGroups cfg (staticCands cfg t sr (win D a b)), ∀ c ∈ g,
      c ∈ staticCands cfg t sr (win D a b) := by
    intro g hg c hc
    rw [← hfl]
    exact List.mem_flatten.mpr ⟨g, hg, hc⟩
  constructor
  · intro e he h1 h2
    obtain ⟨g, hg, pre, best, post, hs, -, -, e1, e2, e3, e4, e5, e6, e7, ⟨c1, hc1, e8⟩, -,
      ⟨c2, hc2, e9⟩, -⟩ := forall₂_exists_right hor he
    have hbg : best ∈ g := by rw [hs]; simp
    have hgb := hsing g hg best hbg (by rw [← e1]; exact h1) (by rw [← e1]; exact h2)
    rw [hgb, List.mem_singleton] at hc1 hc2
    subst hc1; subst hc2
    obtain ⟨f, l, p, hcf⟩ := cand_facts cfg hmw t sr _ hW (hin g hg _ hbg)
    have h3 := hcf.time
    have hpq := run_peak hD hb ha hv hcf.peak (by linarith) (by linarith)
    have h4 := hcf.lo
    have h5 := hcf.hi
    have hfl' : u ≤ f.dt ∧ l.dt ≤ v := by
      rcases run_cases hb hcf with h | h | h
      · exact h
      · linarith
      · linarith
    rw [e1, e2, e3, e4, e5, e6, e7, e8, e9, ← hpq]
    exact ⟨hcf.time, hcf.trig, hcf.x, hcf.y, hcf.z, hcf.coa, hcf.coaN,
      by linarith [hcf.minTime], by linarith [hcf.maxTime]⟩
  · obtain ⟨c, hc, q', hq', hl, h1, -⟩ := cand_of_above cfg t sr _ hW hqW
      (hb.above q hb.mem hb.lo hb.hi)
    have hq'D := mem_win.mp hq'.mem
    have hlo := hb.lo
    have hhi := hb.hi
    have hu' : u ≤ q'.dt := by
      by_contra hn
      push Not at hn
      obtain ⟨-, r, hr, hr1, hr2, hr3⟩ := hb.before q' hq'D.1 hn hq'.above
      have := hl r (mem_win.mpr ⟨hr, by linarith, by linarith⟩) (Or.inr (by linarith))
        (Or.inl (by linarith [hb.lo]))
      linarith
    have hv' : q'.dt ≤ v := by
      by_contra hn
      push Not at hn
      obtain ⟨-, r, hr, hr1, hr2, hr3⟩ := hb.after q' hq'D.1 hn hq'.above
      have := hl r (mem_win.mpr ⟨hr, by linarith, by linarith⟩) (Or.inl (by linarith [hb.hi]))
        (Or.inr (by linarith))
      linarith
    have hqq := run_peak hD hb ha hv hq' hu' hv'
    have hc' := hc
    rw [← hfl, List.mem_flatten] at hc'
    obtain ⟨g, hg, hcg⟩ := hc'
    have hgc := hsing g hg c hcg (by rw [h1]; exact hu') (by rw [h1]; exact hv')
    obtain ⟨e, he, pre, best, post, hs, -, -, e1, -⟩ := forall₂_exists_left hor hg
    have hbg : best ∈ g := by rw [hs]; simp
    rw [hgc, List.mem_singleton] at hbg
    exact ⟨e, he, by rw [e1, hbg, h1, hqq]⟩

end

/-! ## The property -/

/-- **C112** (partial).  With a static threshold and no smoothing, samples on a grid that contains the
midnights, and reads that are longer at both ends than the burst, a run that ends normally reports
exactly one event with a time in the burst: its first sample of largest COA, with its values, if the
sample is in the region; none if it is not.  Missing: other thresholds and samples off the grid, for
which it is false (below). -/
theorem C112_isolated_reported_once_partial (cfg : Trigger.Cfg) (hmw : 0 ≤ cfg.mw) (hmei : 0 ≤ cfg.mei)
    (t : ℚ) (region : Option Region) (D : List Row) (hD : D.Pairwise (fun r s => r.dt < s.dt))
    (pad δ : ℚ) (read : ℚ → ℚ → Option ScanData) (hread : Spec.ReadsFrom D pad read)
    (hδ : ∀ a b sd, read a b = some sd → sd.delta = δ) (hday : ∃ k : ℕ, 86400 = k * δ)
    (hgrid : ∀ r ∈ D, ∃ n : ℤ, r.dt = n * δ) (s e u v : ℚ) (q : Row)
    (hb : Spec.IsolatedBurst cfg.norm t (cfg.mei + cfg.mw) D u v q) (hpad : v - u ≤ pad)
    (hs : s ≤ q.dt) (he : q.dt < e)
    (hok : (trigger cfg (.static t) id region read s e).2 = none) :
    (Spec.RowIn region q → ∃ x,
      ((trigger cfg (.static t) id region read s e).1.flatMap Prod.snd).filter
        (fun x => decide (u ≤ x.coaTime ∧ x.coaTime ≤ v)) = [x] ∧
      x.coaTime = q.dt ∧ x.trigCoa = trigValue cfg.norm q ∧ x.x = q.x ∧ x.y = q.y ∧ x.z = q.z ∧
      x.coa = q.coa ∧ x.coaN = q.coaN ∧ u - cfg.mei ≤ x.minTime ∧ x.maxTime ≤ v + cfg.mei) ∧
    (¬ Spec.RowIn region q → ∀ x ∈ (trigger cfg (.static t) id region read s e).1.flatMap Prod.snd,
      ¬ (u ≤ x.coaTime ∧ x.coaTime ≤ v)) := by
  have hse : s ≤ e := by linarith
  obtain ⟨hpw, -⟩ := C13_no_event_twice cfg (.static t) id region read s e hse
    (fun a b sd h => (hread a b sd h).2)
  obtain ⟨bs, hbs, -, heq, -⟩ := C07_batches_partition cfg (.static t) id region read s e hse
  have heq := heq hok
  have hev : ∀ p ∈ (trigger cfg (.static t) id region read s e).1,
      ∃ sd, read p.1.1 p.1.2 = some sd ∧
        p.2 = (triggerBatch cfg (.static t) id region p.1.1 p.1.2 sd).1 := by
    unfold trigger
    rw [if_neg (not_lt.mpr hse)]
    exact (runBatches_prefix cfg (.static t) id region read (batches s e)).2.2.2
  generalize (trigger cfg (.static t) id region read s e).1 = res at *
  -- events of the run are in order of time
  have hsort : (res.flatMap Prod.snd).Pairwise (fun x y => x.coaTime < y.coaTime) := by
    rw [List.pairwise_flatMap]
    refine ⟨?_, hpw⟩
    intro p hp
    obtain ⟨sd, h1, h2⟩ := hev p hp
    rw [h2]
    refine (C10_reported_events_separated cfg (.static t) id region _ _ sd hmw ?_).imp
      (fun h => by linarith)
    rw [id, (hread _ _ _ h1).1]
    exact hD.sublist List.filter_sublist
  -- whatever is reported in the burst is its largest sample
  have hrep : ∀ x ∈ res.flatMap Prod.snd, u ≤ x.coaTime → x.coaTime ≤ v →
      InRegion region x ∧ x.coaTime = q.dt ∧ x.trigCoa = trigValue cfg.norm q ∧ x.x = q.x ∧
        x.y = q.y ∧ x.z = q.z ∧ x.coa = q.coa ∧ x.coaN = q.coaN ∧ u - cfg.mei ≤ x.minTime ∧
        x.maxTime ≤ v + cfg.mei := by
    intro x hx h1 h2
    obtain ⟨p, hp, hx⟩ := List.mem_flatMap.mp hx
    obtain ⟨sd, hr, he'⟩ := hev p hp
    rw [he', mem_triggerBatch] at hx
    obtain ⟨hx1, hx2, hx3, hx4⟩ := hx
    obtain ⟨hsd, hδ'⟩ := hread _ _ _ hr
    simp only [id, hsd] at hx1
    have hx5 : x.coaTime ≤ p.1.2 := by split at hx3 <;> linarith
    exact ⟨hx4, (burst_event hmw hmei sd.sr hD hb (by linarith) (by linarith)).1 x hx1 h1 h2⟩
  constructor
  · intro hreg
    obtain ⟨b, hbm, hb1, hb2⟩ := hbs.covers q.dt hs he
    rw [← heq, List.mem_map] at hbm
    obtain ⟨p, hp, rfl⟩ := hbm
    obtain ⟨sd, hr, he'⟩ := hev p hp
    obtain ⟨hsd, hδ'⟩ := hread _ _ _ hr
    have hlo := hb.lo
    have hhi := hb.hi
    obtain ⟨hall, x, hx, hxt⟩ := burst_event hmw hmei sd.sr hD hb
      (a := p.1.1 - pad) (b := p.1.2 + pad) (by linarith) (by linarith)
    obtain ⟨-, h2, h3, h4, h5, -⟩ := hall x hx (by linarith) (by linarith)
    have hxr : x ∈ res.flatMap Prod.snd := by
      refine List.mem_flatMap.mpr ⟨p, hp, ?_⟩
      rw [he']
      refine C13_no_event_lost_at_boundary cfg (.static t) id region p.1 sd x hδ' ?_ ?_ ?_ ?_ ?_
      · rw [hδ _ _ _ hr]; exact hday
      · rw [hδ _ _ _ hr, hxt]; exact hgrid q hb.mem
      · rw [hxt]; exact ⟨hb1, hb2⟩
      · simp only [id, hsd]; exact hx
      · intro r hr'
        rw [h3, h4, h5]
        exact hreg r hr'
    have hmem : x ∈ (res.flatMap Prod.snd).filter
        (fun x => decide (u ≤ x.coaTime ∧ x.coaTime ≤ v)) := by
      rw [List.mem_filter]
      exact ⟨hxr, by simp only [decide_eq_true_eq]; constructor <;> linarith⟩
    have hsf := hsort.sublist (List.filter_sublist
      (p := fun x => decide (u ≤ x.coaTime ∧ x.coaTime ≤ v)))
    have hallf : ∀ y ∈ (res.flatMap Prod.snd).filter
        (fun x => decide (u ≤ x.coaTime ∧ x.coaTime ≤ v)), y.coaTime = q.dt := by
      intro y hy
      rw [List.mem_filter, decide_eq_true_eq] at hy
      exact (hrep y hy.1 hy.2.1 hy.2.2).2.1
    refine ⟨x, ?_, (hrep x hxr (by linarith) (by linarith)).2⟩
    generalize (res.flatMap Prod.snd).filter
        (fun x => decide (u ≤ x.coaTime ∧ x.coaTime ≤ v)) = L at *
    match L with
    | [] => simp at hmem
    | [y] => rw [List.mem_singleton] at hmem; rw [hmem]
    | y :: z :: L =>
      have h6 := (List.pairwise_cons.mp hsf).1 z (by simp)
      have h7 := hallf y (by simp)
      have h8 := hallf z (by simp)
      linarith
  · intro hreg x hx hxx
    obtain ⟨h1, -, -, h3, h4, h5, -⟩ := hrep x hx hxx.1 hxx.2
    apply hreg
    intro r hr
    have := h1 r hr
    rwa [h3, h4, h5] at this

/-! ## What is false, and concrete cases -/

/-- A burst over a midnight, the largest sample just before it. -/
theorem shortScan_burst :
    Spec.IsolatedBurst true 2 (2 + 1) shortScan 86399 86400 ⟨86399, 5, 5, 0, 0, 0⟩ where
  mem := by decide +kernel
  lo := by norm_num
  hi := by norm_num
  above := by decide +kernel
  max := by decide +kernel
  first := by decide +kernel
  after := by decide +kernel
  before := by decide +kernel

/-- The same run as for C110: all hypotheses hold and the conclusion is the one expected. -/
example : ∃ x, ((trigger ⟨1, 2, true⟩ (.static 2) id none (readScan shortScan 2)
      86390 86410).1.flatMap Prod.snd).filter
        (fun x => decide (86399 ≤ x.coaTime ∧ x.coaTime ≤ 86400)) = [x] ∧ x.coaTime = 86399 ∧
        x.trigCoa = 5 := by
  obtain ⟨x, h1, h2, h3, -⟩ := (C112_isolated_reported_once_partial ⟨1, 2, true⟩ (by norm_num)
    (by norm_num) 2 none shortScan (by decide +kernel) 2 1 (readScan shortScan 2)
    (readScan_reads _ _) (fun a b sd h => by simp only [readScan, Option.some.injEq] at h; rw [← h])
    ⟨86400, by norm_num⟩
    (fun r hr => ⟨r.dt.num, by
      have : ∀ r ∈ shortScan, r.dt = (r.dt.num : ℚ) * 1 := by decide +kernel
      exact this r hr⟩)
    86390 86410 86399 86400 ⟨86399, 5, 5, 0, 0, 0⟩ shortScan_burst (by norm_num) (by norm_num)
    (by norm_num) (by unfold trigger; rw [if_neg (by norm_num), two_batches]
                      simp [runBatches, readScan])).1 (fun r hr => by simp at hr)
  exact ⟨x, h1, h2, by rw [h3]; rfl⟩

/-- One sample a second, half a second off the midnight. -/
def offGridScan : List Row :=
  [⟨86398 + 1 / 2, 1, 1, 0, 0, 0⟩, ⟨86399 + 1 / 2, 5, 5, 0, 0, 0⟩, ⟨86400 + 1 / 2, 1, 1, 0, 0, 0⟩]

/-- **C112**, violated: if the midnight is not a sampling time, a sample less than one interval before
it is in the reporting span of neither day.  The burst is isolated, and no event is reported. -/
theorem C112_violated_off_grid :
    offGridScan.Pairwise (fun r s => r.dt < s.dt) ∧
    Spec.ReadsFrom offGridScan 3 (readScan offGridScan 3) ∧
    Spec.IsolatedBurst true 2 (2 + 1) offGridScan (86399 + 1 / 2) (86399 + 1 / 2)
      ⟨86399 + 1 / 2, 5, 5, 0, 0, 0⟩ ∧
    (trigger ⟨1, 2, true⟩ (.static 2) id none (readScan offGridScan 3) 86390 86410).2 = none ∧
    (trigger ⟨1, 2, true⟩ (.static 2) id none (readScan offGridScan 3)
      86390 86410).1.flatMap Prod.snd = [] := by
  refine ⟨by decide +kernel, readScan_reads _ _, ⟨by decide +kernel, by norm_num, by norm_num,
    by decide +kernel, by decide +kernel, by decide +kernel, by decide +kernel, by decide +kernel⟩,
    ?_, ?_⟩
  · unfold trigger; rw [if_neg (by norm_num), two_batches]
    simp [runBatches, readScan]
  · rw [trigger_two]
    have h1 : (triggerBatch ⟨1, 2, true⟩ (.static 2) id none 86390 86400
      ⟨offGridScan.filter (fun r => decide ((86390 : ℚ) - 3 ≤ r.dt ∧ r.dt ≤ 86400 + 3)), 1, 1⟩).1.length
        = 0 := by decide +kernel
    have h2 : (triggerBatch ⟨1, 2, true⟩ (.static 2) id none 86400 86410
      ⟨offGridScan.filter (fun r => decide ((86400 : ℚ) - 3 ≤ r.dt ∧ r.dt ≤ 86410 + 3)), 1, 1⟩).1.length
        = 0 := by decide +kernel
    rw [List.length_eq_zero_iff] at h1 h2
    rw [h1, h2]; rfl

/-- **C112**, violated: without a pad, each day sees its own part of a burst over the midnight, and
reports it. -/
theorem C112_violated_small_pad :
    shortScan.Pairwise (fun r s => r.dt < s.dt) ∧
    Spec.ReadsFrom shortScan 0 (readScan shortScan 0) ∧
    Spec.IsolatedBurst true 2 (2 + 1) shortScan 86399 86400 ⟨86399, 5, 5, 0, 0, 0⟩ ∧
    (((trigger ⟨1, 2, true⟩ (.static 2) id none (readScan shortScan 0)
      86390 86410).1.flatMap Prod.snd).filter
        (fun x => decide (86399 ≤ x.coaTime ∧ x.coaTime ≤ 86400))).length = 2 := by
  obtain ⟨h1, h2, h3⟩ := C110_violated_small_pad
  refine ⟨h1, h2, shortScan_burst, ?_⟩
  generalize (trigger ⟨1, 2, true⟩ (.static 2) id none (readScan shortScan 0)
    86390 86410).1.flatMap Prod.snd = L at h3
  have h4 : (L.filter (fun x => decide (86399 ≤ x.coaTime ∧ x.coaTime ≤ 86400))).length =
      ((L.map Cand.coaTime).filter (fun a => decide (86399 ≤ a ∧ a ≤ 86400))).length := by
    rw [List.filter_map, List.length_map]; rfl
  rw [h4, h3]
  decide +kernel

end QM
