import Verif.Model.PickPlot
import Verif.Props.Picker
import Verif.Props.Locate
import Verif.Props.Midnight

/-!
# C152: the figure of the picks
-/

namespace QM

open Picker PickPlot

/-- The samples of the pick windows, and ten before each, are samples of the waveforms. -/
structure Spec.WindowsInData (n : ℕ) (phases : List Phase) : Prop where
  lo : ∀ p ∈ phases, 10 ≤ p.win.lo
  ordered : ∀ p ∈ phases, p.win.lo ≤ p.win.hi
  hi : ∀ p ∈ phases, p.win.hi < n

theorem nearest_isSome (start sr : ℚ) {n : ℕ} (hn : 0 < n) (x : ℚ) : ∃ i, nearest start sr n x = some i := by
  apply firstMaxBy_isSome
  rw [Ne, List.range_eq_nil]
  omega

theorem allOk_ok {l : List (Except PickPlot.Err Unit)} (h : ∀ x ∈ l, x = .ok ()) : allOk l = .ok () := by
  induction l with
  | nil => rfl
  | cons a l ih =>
    rw [h a (by simp)]
    exact ih fun x hx => h x (by simp [hx])

theorem maxOf_ok {l : List ℚ} (h : 0 < l.length) : maxOf l = .ok () := by
  unfold maxOf
  rw [if_neg]
  rintro rfl
  simp at h

theorem except_mapM_ok {ε α β : Type} {f : α → Except ε β} {g : α → β} {l : List α} (h : ∀ a ∈ l, f a = .ok (g a)) :
    l.mapM f = .ok (l.map g) := by
  induction l with
  | nil => rfl
  | cons a l ih =>
    rw [List.mapM_cons, h a (by simp), ih fun x hx => h x (by simp [hx])]
    rfl

theorem at_in {start sr : ℚ} {n : ℕ} {i : ℤ} (h0 : 0 ≤ i) (h1 : i < n) : at_ start sr n i = .ok (timeOf start sr i) :=
  if_pos ⟨h0, h1⟩

theorem min?_mem_le {l : List ℤ} {m : ℤ} (h : l.min? = some m) : m ∈ l ∧ ∀ x ∈ l, m ≤ x := List.min?_eq_some_iff.1 h

theorem max?_mem_le {l : List ℤ} {m : ℤ} (h : l.max? = some m) : m ∈ l ∧ ∀ x ∈ l, x ≤ m := List.max?_eq_some_iff.1 h

/-- C152: the figure of a station is made whenever its pick windows, and ten samples before them, are in the data. -/
theorem C152_drawn_partial (start sr otime : ℚ) (n : ℕ) (phases : List Phase) (traces : List (List ℚ))
    (picks : List PickRow) (hne : phases ≠ []) (hw : Spec.WindowsInData n phases)
    (ho : ∀ p ∈ phases, p.onset.length = n) (ht : ∀ y ∈ traces, y.length = n) :
    ∃ fig, pickSummary start sr otime n phases traces picks = .ok fig := by
  obtain ⟨first, hfirst⟩ : ∃ p, phases.head? = some p := by
    cases phases with
    | nil => exact absurd rfl hne
    | cons a l => exact ⟨a, rfl⟩
  obtain ⟨last, hlast⟩ : ∃ p, phases.getLast? = some p := ⟨_, List.getLast?_eq_some_getLast hne⟩
  have hf := List.mem_of_head? hfirst
  have hl := List.mem_of_getLast? hlast
  have hne1 : phases.map (fun p => p.win.lo) ≠ [] := by simpa using hne
  have hne2 : phases.map (fun p => p.win.hi) ≠ [] := by simpa using hne
  obtain ⟨lo, hlo⟩ := Option.ne_none_iff_exists'.1 (fun h => hne1 (List.min?_eq_none_iff.1 h))
  obtain ⟨hi, hhi⟩ := Option.ne_none_iff_exists'.1 (fun h => hne2 (List.max?_eq_none_iff.1 h))
  have hn : 0 < n := by
    have h1 := hw.lo first hf
    have h2 := hw.ordered first hf
    have h3 := hw.hi first hf
    omega
  obtain ⟨tLo, htLo⟩ := nearest_isSome start sr hn (otime + 1 / 2 * first.tt)
  obtain ⟨tHi, htHi⟩ := nearest_isSome start sr hn (otime + 3 / 2 * last.tt)
  obtain ⟨hlo1, hlo2⟩ := min?_mem_le hlo
  obtain ⟨hhi1, hhi2⟩ := max?_mem_le hhi
  have hlo10 : 10 ≤ lo := by
    obtain ⟨p, hp, rfl⟩ := List.mem_map.1 hlo1
    exact hw.lo p hp
  have hlohi : lo ≤ hi := by
    have h1 := hlo2 _ (List.mem_map_of_mem hf)
    have h2 := hhi2 _ (List.mem_map_of_mem hf)
    have h3 := hw.ordered first hf
    omega
  have hhin : hi < n := by
    obtain ⟨p, hp, rfl⟩ := List.mem_map.1 hhi1
    exact hw.hi p hp
  have h1 : allOk (traces.map fun y => maxOf (pySlice y (lo - 10) (hi + 10 + 1))) = .ok () := by
    apply allOk_ok
    intro x hx
    obtain ⟨y, hy, rfl⟩ := List.mem_map.1 hx
    apply maxOf_ok
    rw [pySlice_length, pyIdx_nonneg (by omega), pyIdx_nonneg (by omega), ht y hy]
    omega
  have hmem : ∀ o ∈ onsetAxes phases, o.2 ∈ phases := by
    intro o ho
    unfold onsetAxes at ho
    split at ho
    · split_ifs at ho <;> simp_all
    · exact (List.of_mem_zip ho).2
  have h2 : allOk ((onsetAxes phases).map fun o => maxOf (pySlice o.2.onset o.2.win.lo (o.2.win.hi + 1))) = .ok () := by
    apply allOk_ok
    intro x hx
    obtain ⟨o, ho', rfl⟩ := List.mem_map.1 hx
    have hp := hmem o ho'
    have a1 := hw.lo _ hp
    have a2 := hw.ordered _ hp
    have a3 := hw.hi _ hp
    apply maxOf_ok
    rw [pySlice_length, pyIdx_nonneg (by omega), pyIdx_nonneg (by omega), ho _ hp]
    omega
  have h3 : ∀ axis, ∃ pn, panel start sr otime n first last picks axis = .ok pn := by
    intro axis
    have hp : (if axis % 3 = 0 then first else last) ∈ phases := by
      split_ifs
      · exact hf
      · exact hl
    unfold panel
    generalize (if axis % 3 = 0 then first else last) = p at hp
    have a1 := hw.lo _ hp
    have a2 := hw.ordered _ hp
    have a3 := hw.hi _ hp
    simp only [at_in (start := start) (sr := sr) (show (0 : ℤ) ≤ p.win.lo by omega) (show p.win.lo < n by omega),
      at_in (start := start) (sr := sr) (show (0 : ℤ) ≤ p.win.hi by omega) a3]
    exact ⟨_, rfl⟩
  choose g hg using h3
  have h4 := except_mapM_ok (l := axisList phases) (fun a _ => hg a)
  unfold pickSummary
  rw [hfirst, hlast, hlo, hhi]
  simp only
  rw [htLo, htHi]
  simp only
  rw [h1]
  simp only
  rw [h2]
  simp only
  rw [h4]
  exact ⟨_, rfl⟩

/-- What a figure that was made holds. -/
theorem pickSummary_ok {start sr otime : ℚ} {n : ℕ} {phases : List Phase} {traces : List (List ℚ)}
    {picks : List PickRow} {fig : PickPlot.Figure} (h : pickSummary start sr otime n phases traces picks = .ok fig) :
    ∃ first last lo hi tLo tHi, phases.head? = some first ∧ phases.getLast? = some last ∧
      (phases.map fun p => p.win.lo).min? = some lo ∧ (phases.map fun p => p.win.hi).max? = some hi ∧
      nearest start sr n (otime + 1 / 2 * first.tt) = some tLo ∧ nearest start sr n (otime + 3 / 2 * last.tt) = some tHi ∧
      (axisList phases).mapM (panel start sr otime n first last picks) = .ok fig.panels ∧
      fig.xlim = (timeOf start sr (limits n tLo tHi lo hi).1, timeOf start sr (limits n tLo tHi lo hi).2) ∧
      fig.onsets = (onsetAxes phases).map fun o => (o.1, o.2.name) := by
  unfold pickSummary at h
  cases h1 : phases.head? with
  | none => rw [h1] at h; simp at h
  | some first =>
  cases h2 : phases.getLast? with
  | none => rw [h1, h2] at h; simp at h
  | some last =>
  cases h3 : (phases.map fun p => p.win.lo).min? with
  | none => rw [h1, h2, h3] at h; simp at h
  | some lo =>
  cases h4 : (phases.map fun p => p.win.hi).max? with
  | none => rw [h1, h2, h3, h4] at h; simp at h
  | some hi =>
  rw [h1, h2, h3, h4] at h
  simp only at h
  cases h5 : nearest start sr n (otime + 1 / 2 * first.tt) with
  | none => rw [h5] at h; simp at h
  | some tLo =>
  cases h6 : nearest start sr n (otime + 3 / 2 * last.tt) with
  | none => rw [h5, h6] at h; simp at h
  | some tHi =>
  rw [h5, h6] at h
  simp only at h
  cases h7 : allOk (traces.map fun y => maxOf (pySlice y (lo - 10) (hi + 10 + 1))) with
  | error e => rw [h7] at h; simp at h
  | ok _ =>
  rw [h7] at h
  simp only at h
  cases h8 : allOk ((onsetAxes phases).map fun o => maxOf (pySlice o.2.onset o.2.win.lo (o.2.win.hi + 1))) with
  | error e => rw [h8] at h; simp at h
  | ok _ =>
  rw [h8] at h
  simp only at h
  cases h9 : (axisList phases).mapM (panel start sr otime n first last picks) with
  | error e => rw [h9] at h; simp at h
  | ok ps =>
  rw [h9] at h
  simp only [Except.ok.injEq] at h
  subst h
  exact ⟨first, last, lo, hi, tLo, tHi, rfl, rfl, rfl, rfl, h5, h6, h9, rfl, rfl⟩

theorem timeOf_mono {start sr : ℚ} (hsr : 0 < sr) {i j : ℤ} (h : i ≤ j) : timeOf start sr i ≤ timeOf start sr j := by
  unfold timeOf
  have : (i : ℚ) / sr ≤ j / sr := div_le_div_of_nonneg_right (by exact_mod_cast h) hsr.le
  linarith

theorem nearest_lt {start sr : ℚ} {n : ℕ} {x : ℚ} {i : ℕ} (h : nearest start sr n x = some i) : i < n := by
  obtain ⟨pre, post, h1, -⟩ := firstMaxBy_spec h
  have : i ∈ List.range n := by rw [h1]; simp
  exact List.mem_range.1 this

/-- C152: whatever lies in a pick window, and so every pick (C59), is inside the limits of the figure. -/
theorem C152_visible (start sr otime : ℚ) (hsr : 0 < sr) (n : ℕ) (phases : List Phase) (traces : List (List ℚ))
    (picks : List PickRow) (fig : PickPlot.Figure) (h : pickSummary start sr otime n phases traces picks = .ok fig)
    (p : Phase) (hp : p ∈ phases) (h0 : 0 ≤ p.win.lo) (hn : p.win.hi < n) (t : ℚ)
    (ht : timeOf start sr p.win.lo ≤ t ∧ t ≤ timeOf start sr p.win.hi) : fig.xlim.1 ≤ t ∧ t ≤ fig.xlim.2 := by
  obtain ⟨first, last, lo, hi, tLo, tHi, -, -, h3, h4, h5, h6, -, h8, -⟩ := pickSummary_ok h
  have a1 := (min?_mem_le h3).2 _ (List.mem_map_of_mem hp)
  have a2 := (max?_mem_le h4).2 _ (List.mem_map_of_mem hp)
  rw [h8]
  refine ⟨le_trans (timeOf_mono hsr ?_) ht.1, le_trans ht.2 (timeOf_mono hsr ?_)⟩
  · unfold limits
    simp only
    split_ifs <;> omega
  · unfold limits
    simp only
    split_ifs <;> omega

theorem panel_ok {start sr otime : ℚ} {n : ℕ} {first last : Phase} {picks : List PickRow} {axis : ℕ} {pn : Panel}
    (h : panel start sr otime n first last picks axis = .ok pn) :
    ∃ p, p = (if axis % 3 = 0 then first else last) ∧ at_ start sr n p.win.lo = .ok pn.span.1 ∧
      at_ start sr n p.win.hi = .ok pn.span.2 ∧ pn.axis = axis ∧ pn.phase = p.name ∧ pn.arrival = otime + p.tt ∧
      pn.picks = picks.filterMap fun r => r.pick.map fun q => (r.phase, q.1) := by
  unfold panel at h
  refine ⟨_, rfl, ?_⟩
  generalize (if axis % 3 = 0 then first else last) = p at h
  simp only at h
  cases h1 : at_ start sr n p.win.lo with
  | error e => rw [h1] at h; cases h2 : at_ start sr n p.win.hi <;> rw [h2] at h <;> simp at h
  | ok a =>
    cases h2 : at_ start sr n p.win.hi with
    | error e => rw [h1, h2] at h; simp at h
    | ok b =>
      rw [h1, h2] at h
      simp only [Except.ok.injEq] at h
      subst h
      exact ⟨rfl, rfl, rfl, rfl, rfl, rfl⟩

theorem mapM_ok_mem {ε α β : Type} {f : α → Except ε β} {l : List α} {r : List β} (h : l.mapM f = .ok r) {a : α} (ha : a ∈ l) :
    ∃ b ∈ r, f a = .ok b := by
  induction l generalizing r with
  | nil => simp at ha
  | cons x l ih =>
    rw [List.mapM_cons] at h
    cases hx : f x with
    | error e => rw [hx] at h; cases h
    | ok b =>
      rw [hx] at h
      cases hl : l.mapM f with
      | error e => rw [hl] at h; cases h
      | ok bs =>
        rw [hl] at h
        cases h
        rcases List.mem_cons.1 ha with rfl | ha
        · exact ⟨b, by simp, hx⟩
        · obtain ⟨b', h1, h2⟩ := ih hl ha
          exact ⟨b', by simp [h1], h2⟩

/-- C152: every phase has its onset function on one of the axes, and on the same axes its own modelled arrival, its own
pick window and every pick of the station.  Missing: stations with more than two phases, and single phases that are not
called P or S. -/
theorem C152_panels_partial (start sr otime : ℚ) (n : ℕ) (phases : List Phase) (traces : List (List ℚ))
    (picks : List PickRow) (fig : PickPlot.Figure) (h : pickSummary start sr otime n phases traces picks = .ok fig)
    (hph : phases.length = 2 ∨ ∃ p, phases = [p] ∧ (p.name = ['P'] ∨ p.name = ['S']))
    (p : Phase) (hp : p ∈ phases) (h0 : 0 ≤ p.win.lo ∧ p.win.lo ≤ p.win.hi) :
    ∃ pn ∈ fig.panels, (pn.axis, p.name) ∈ fig.onsets ∧ pn.phase = p.name ∧ pn.arrival = otime + p.tt ∧
      pn.span = (timeOf start sr p.win.lo, timeOf start sr p.win.hi) ∧
      ∀ r ∈ picks, ∀ q, r.pick = some q → (r.phase, q.1) ∈ pn.picks := by
  obtain ⟨first, last, lo, hi, tLo, tHi, h1, h2, -, -, -, -, h7, -, h9⟩ := pickSummary_ok h
  -- the axis of the phase
  obtain ⟨axis, hax, hon, hpp⟩ : ∃ axis ∈ axisList phases, (axis, p.name) ∈ fig.onsets ∧
      (if axis % 3 = 0 then first else last) = p := by
    rcases hph with hph | ⟨q, rfl, hq⟩
    · obtain ⟨a, b, rfl⟩ := List.length_eq_two.1 hph
      simp only [List.head?_cons, Option.some.injEq] at h1
      simp at h2
      subst h1 h2
      rcases List.mem_cons.1 hp with rfl | hp
      · exact ⟨3, by simp [axisList], by rw [h9]; simp [onsetAxes], rfl⟩
      · simp only [List.mem_cons, List.not_mem_nil, or_false] at hp
        subst hp
        exact ⟨4, by simp [axisList], by rw [h9]; simp [onsetAxes], rfl⟩
    · simp only [List.mem_cons, List.not_mem_nil, or_false] at hp
      subst hp
      simp only [List.head?_cons, Option.some.injEq] at h1
      simp at h2
      subst h1 h2
      rcases hq with hq | hq
      · exact ⟨3, by simp [axisList, hq], by rw [h9]; simp [onsetAxes, hq], rfl⟩
      · exact ⟨4, by simp [axisList, hq], by rw [h9]; simp [onsetAxes, hq], rfl⟩
  obtain ⟨pn, hpn, hok⟩ := mapM_ok_mem h7 hax
  obtain ⟨p', hp', e1, e2, e3, e4, e5, e6⟩ := panel_ok hok
  rw [hpp] at hp'
  subst hp'
  refine ⟨pn, hpn, by rw [e3]; exact hon, e4, e5, ?_, ?_⟩
  · have key : ∀ i t, 0 ≤ i → at_ start sr n i = .ok t → t = timeOf start sr i := by
      intro i t hi ht
      unfold at_ at ht
      split_ifs at ht with c1 c2
      · simpa using ht.symm
      · omega
    rw [Prod.ext_iff]
    exact ⟨key _ _ h0.1 e1, key _ _ (by omega) e2⟩
  · intro r hr q hq
    rw [e6]
    exact List.mem_filterMap.2 ⟨r, hr, by rw [hq]; rfl⟩

/-- C152: the figure fails whenever the window of the first or last phase reaches the end of the data: the number of
samples, to which `_distinguish_windows` cuts windows, is not the number of a sample. -/
theorem C152_fails (start sr otime : ℚ) (n : ℕ) (phases : List Phase) (traces : List (List ℚ)) (picks : List PickRow)
    (p : Phase) (hp : phases.getLast? = some p) (hname : p.name ≠ ['P'] ∨ phases.length ≠ 1) (hhi : p.win.hi = n) :
    ∃ e, pickSummary start sr otime n phases traces picks = .error e := by
  cases h : pickSummary start sr otime n phases traces picks with
  | error e => exact ⟨e, rfl⟩
  | ok fig =>
    exfalso
    obtain ⟨first, last, lo, hi, tLo, tHi, h1, h2, -, -, -, -, h7, -, h9⟩ := pickSummary_ok h
    rw [hp, Option.some.injEq] at h2
    subst h2
    have hax : 4 ∈ axisList phases := by
      unfold axisList
      split
      · rename_i q
        simp at hp
        subst hp
        simp at hname
        simp [hname]
      · simp
    obtain ⟨pn, hpn, hok⟩ := mapM_ok_mem h7 hax
    obtain ⟨p', hp', e1, e2, -⟩ := panel_ok hok
    rw [if_neg (by norm_num)] at hp'
    subst hp'
    unfold at_ at e2
    rw [if_neg (by omega), if_neg (by omega)] at e2
    simp at e2

theorem pairsFrom_last (ws : List Win) (w : Win) :
    ((pairsFrom w ws).getLast?.map Win.hi) = ((w :: ws).getLast?.map Win.hi) := by
  induction ws generalizing w with
  | nil => rfl
  | cons a ws ih =>
    have h1 := ih { a with lo := max ((w.arr + a.arr).tdiv 2) a.lo }
    have hne : pairsFrom { a with lo := max ((w.arr + a.arr).tdiv 2) a.lo } ws ≠ [] := by
      cases ws <;> simp [pairsFrom]
    have h2 : (pairsFrom w (a :: ws)).getLast? =
        (pairsFrom { a with lo := max ((w.arr + a.arr).tdiv 2) a.lo } ws).getLast? := by
      obtain ⟨b, l, hb⟩ := List.exists_cons_of_ne_nil hne
      show (_ :: pairsFrom { a with lo := max ((w.arr + a.arr).tdiv 2) a.lo } ws).getLast? = _
      rw [hb, List.getLast?_cons_cons]
    rw [h2, h1, List.getLast?_cons_cons]
    cases ws with
    | nil => rfl
    | cons b ws => rw [List.getLast?_cons_cons, List.getLast?_cons_cons]

theorem clampLast_last (n : ℤ) (ws : List Win) :
    ((clampLast n ws).getLast?.map Win.hi) = (ws.getLast?.map fun w => if w.hi > n then n else w.hi) := by
  induction ws with
  | nil => rfl
  | cons a ws ih =>
    cases ws with
    | nil => rfl
    | cons b ws =>
      have : clampLast n (b :: ws) ≠ [] := by cases ws <;> simp [clampLast]
      obtain ⟨x, l, hx⟩ := List.exists_cons_of_ne_nil this
      rw [List.getLast?_cons_cons, ← ih]
      show ((a :: clampLast n (b :: ws)).getLast?.map Win.hi) = _
      rw [hx, List.getLast?_cons_cons]

/-- The end of the last window: as computed, or the number of samples. -/
theorem distinguish_last (n : ℤ) (ws : List Win) :
    ((distinguish n ws).getLast?.map Win.hi) = (ws.getLast?.map fun w => if w.hi > n then n else w.hi) := by
  unfold distinguish
  rw [clampLast_last]
  cases ws with
  | nil => rfl
  | cons a ws =>
    have h := pairsFrom_last ws { a with lo := if a.lo < 0 then 0 else a.lo }
    have h2 : ((({ a with lo := if a.lo < 0 then 0 else a.lo } : Win) :: ws).getLast?.map Win.hi) =
        ((a :: ws).getLast?.map Win.hi) := by
      cases ws with
      | nil => rfl
      | cons b ws => rw [List.getLast?_cons_cons, List.getLast?_cons_cons]
    rw [h2] at h
    have h3 : ∀ o : Option Win, (o.map fun w => if w.hi > n then n else w.hi) =
        (o.map Win.hi).map fun x => if x > n then n else x := by
      intro o; cases o <;> rfl
    rw [h3, h3]
    show (((pairsFrom { a with lo := if a.lo < 0 then 0 else a.lo } ws).getLast?.map Win.hi).map _) = _
    rw [h]

/-- The settings of `locate` and of the picker, and an event. -/
structure PickPlot.Run where
  w : Pads.Windows
  ttmax : ℚ
  mw : ℚ
  fraction : ℚ
  sr : ℕ
  trigger : ℚ
  otime : ℚ

/-- First and last time of the data read for the event (signal/scan.py:494-499). -/
def PickPlot.Run.data (r : PickPlot.Run) : ℚ × ℚ :=
  Pads.locateWindow r.trigger r.mw (Pads.scanPads r.w r.ttmax r.sr (4 * r.mw))

/-- The windows of the phases of a station are those of the picker. -/
def Spec.PickerWindows (r : PickPlot.Run) (n : ℕ) (phases : List Phase) : Prop :=
  phases.map (fun p => p.win) =
    distinguish n (phases.map fun p => determineWindow r.otime r.data.1 r.sr r.mw p.tt r.fraction)

/-- C152: in a run of `locate`, the figure of a station is made if the uncertainty of its traveltimes, `fraction_tt`
times the traveltime, is no more than twice the longest long-term window, and the first pad is at least 11 samples. -/
theorem C152_locate_partial (r : PickPlot.Run) (hw : r.w.Nonneg) (hsr : 0 < r.sr) (hf : 0 ≤ r.fraction ∧ r.fraction ≤ 1)
    (hot : |r.trigger - r.otime| < r.mw) (hpad : 11 ≤ (Pads.scanPads r.w r.ttmax r.sr (4 * r.mw)).1 * r.sr)
    (n : ℕ) (hn : (r.data.2 - r.data.1) * r.sr ≤ n) (phases : List Phase) (hne : phases ≠ [])
    (hwin : Spec.PickerWindows r n phases) (htt : ∀ p ∈ phases, 0 ≤ p.tt ∧ p.tt ≤ r.ttmax)
    (hord : phases.Pairwise fun p q => p.tt ≤ q.tt) (hunc : ∀ p ∈ phases, p.tt * r.fraction ≤ 2 * r.w.ltaMax)
    (ho : ∀ p ∈ phases, p.onset.length = n) (traces : List (List ℚ)) (ht : ∀ y ∈ traces, y.length = n)
    (picks : List PickRow) :
    ∃ fig, pickSummary r.data.1 r.sr r.otime n phases traces picks = .ok fig := by
  have hsr' : (0 : ℚ) < r.sr := by exact_mod_cast hsr
  have hsr1 : (1 : ℚ) ≤ r.sr := by exact_mod_cast hsr
  obtain ⟨o1, o2⟩ := abs_lt.1 hot
  have hmw : 0 < r.mw := lt_of_le_of_lt (abs_nonneg _) hot
  have hlta := Pads.Windows.ltaMax_nonneg hw
  have hpre := Pads.prePad_nonneg hw
  have hraw : ∀ p ∈ phases, 10 ≤ (determineWindow r.otime r.data.1 r.sr r.mw p.tt r.fraction).lo ∧
      (determineWindow r.otime r.data.1 r.sr r.mw p.tt r.fraction).hi < n := by
    intro p hp
    obtain ⟨t1, t2⟩ := htt p hp
    have hu := hunc p hp
    have a1 := abs_le.1 (abs_pyRound_sub_le ((r.otime + p.tt - r.data.1) * r.sr))
    have a2 := abs_le.1 (abs_pyRound_sub_le ((p.tt * r.fraction + r.mw) * r.sr))
    constructor
    · show 10 ≤ Pads.time2sample _ _ - Pads.time2sample _ _
      rw [Pads.time2sample_nat, Pads.time2sample_nat]
      have h3 : (Pads.scanPads r.w r.ttmax r.sr (4 * r.mw)).1 * r.sr ≤ (r.otime + p.tt - r.data.1) * r.sr -
          (p.tt * r.fraction + r.mw) * r.sr := by
        rw [← sub_mul]
        apply mul_le_mul_of_nonneg_right _ hsr'.le
        simp only [Pads.locateWindow, PickPlot.Run.data]
        have : p.tt * r.fraction ≤ p.tt := mul_le_of_le_one_right t1 hf.2
        linarith
      have h4 : (10 : ℚ) ≤ (pyRound ((r.otime + p.tt - r.data.1) * r.sr) : ℚ) -
          pyRound ((p.tt * r.fraction + r.mw) * r.sr) := by linarith [a1.1, a2.2]
      exact_mod_cast h4
    · show Pads.time2sample _ _ + Pads.time2sample _ _ < (n : ℤ)
      rw [Pads.time2sample_nat, Pads.time2sample_nat]
      have hc : (1 : ℤ) ≤ ⌈(4 * r.mw + (Pads.prePad r.w + Pads.postPad r.w r.ttmax)) * (6 / 100)⌉ := by
        apply Int.one_le_ceil_iff.2
        have : r.ttmax + 2 * r.w.ltaMax ≤ Pads.postPad r.w r.ttmax := Int.le_ceil _
        nlinarith
      have hp2 : r.ttmax + 2 * r.w.ltaMax + 1 ≤ (Pads.scanPads r.w r.ttmax r.sr (4 * r.mw)).2 := by
        rw [Pads.scanPads_snd _ _ _ hsr]
        have h1 := Int.le_ceil (r.ttmax + 2 * r.w.ltaMax)
        have h2 : (1 : ℚ) ≤ (⌈(4 * r.mw + (Pads.prePad r.w + Pads.postPad r.w r.ttmax)) * (6 / 100)⌉ : ℤ) := by
          exact_mod_cast hc
        push_cast
        linarith
      have h3 : (r.otime + p.tt - r.data.1) * r.sr + (p.tt * r.fraction + r.mw) * r.sr + r.sr <
          (r.data.2 - r.data.1) * r.sr := by
        have : r.otime + p.tt - r.data.1 + (p.tt * r.fraction + r.mw) + 1 < r.data.2 - r.data.1 := by
          simp only [Pads.locateWindow, PickPlot.Run.data]
          linarith
        nlinarith
      have h4 : (pyRound ((r.otime + p.tt - r.data.1) * r.sr) : ℚ) +
          pyRound ((p.tt * r.fraction + r.mw) * r.sr) < n := by linarith [a1.2, a2.2]
      exact_mod_cast h4
  have hsh := distinguish_shrinks n (phases.map fun p => determineWindow r.otime r.data.1 r.sr r.mw p.tt r.fraction)
  rw [← hwin, List.forall₂_map_left_iff, List.forall₂_map_right_iff, List.forall₂_same] at hsh
  have hloc : ∀ p ∈ phases, _ := fun p hp =>
    C57_in_locate r.w hw r.ttmax r.trigger r.otime r.mw p.tt r.fraction r.sr n hsr (htt p hp) hf.1 hot hn
  have hordd := (C57_windows_ordered n (phases.map fun p => determineWindow r.otime r.data.1 r.sr r.mw p.tt r.fraction)
    (by
      intro x hx
      obtain ⟨p, hp, rfl⟩ := List.mem_map.1 hx
      exact ⟨(hloc p hp).1, (hloc p hp).2.1⟩)
    (by
      rw [List.pairwise_map]
      refine hord.imp ?_
      intro a b hab
      show Pads.time2sample _ _ ≤ Pads.time2sample _ _
      rw [Pads.time2sample_nat, Pads.time2sample_nat]
      apply pyRound_mono
      apply mul_le_mul_of_nonneg_right _ hsr'.le
      linarith)
    (by
      intro x hx
      obtain ⟨p, hp, rfl⟩ := List.mem_map.1 hx
      exact (hloc p hp).2.2)).2.1
  rw [← hwin] at hordd
  refine C152_drawn_partial _ _ _ _ _ _ _ hne ⟨?_, ?_, ?_⟩ ho ht
  · intro p hp
    exact le_trans (hraw p hp).1 (hsh p hp).2.1
  · intro p hp
    have := hordd _ (List.mem_map_of_mem hp)
    omega
  · intro p hp
    exact lt_of_le_of_lt (hsh p hp).2.2 (hraw p hp).2

/-- C152 is false of the code: with the default windows, marginal window and `fraction_tt`, a station 150 s away has no
figure, at any sampling rate above 1 Hz, if the origin time is not before the trigger time. -/
theorem C152_violated (r : PickPlot.Run) (hw : r.w = ⟨(1 / 5, 1), [(1 / 5, 1)]⟩) (hmw : r.mw = 2) (hfr : r.fraction = 1 / 10)
    (httmax : r.ttmax = 150) (hsr : 2 ≤ r.sr) (hot : r.trigger ≤ r.otime) (n : ℕ)
    (hn : (n : ℚ) ≤ (r.data.2 - r.data.1) * r.sr + 1) (phases : List Phase) (hwin : Spec.PickerWindows r n phases)
    (p : Phase) (hp : phases.getLast? = some p) (hname : p.name = ['S']) (htt : p.tt = 150)
    (traces : List (List ℚ)) (picks : List PickRow) :
    ∃ e, pickSummary r.data.1 r.sr r.otime n phases traces picks = .error e := by
  apply C152_fails (p := p) (hp := hp)
  · left; rw [hname]; decide
  have hl := distinguish_last n (phases.map fun p => determineWindow r.otime r.data.1 r.sr r.mw p.tt r.fraction)
  rw [← hwin, List.getLast?_map, List.getLast?_map, hp] at hl
  simp only [Option.map_some, Option.some.injEq] at hl
  rw [hl]
  have hsr' : (2 : ℚ) ≤ r.sr := by exact_mod_cast hsr
  have key : (n : ℤ) ≤ (determineWindow r.otime r.data.1 r.sr r.mw p.tt r.fraction).hi := by
    show (n : ℤ) ≤ Pads.time2sample _ _ + Pads.time2sample _ _
    rw [Pads.time2sample_nat, Pads.time2sample_nat]
    have a1 := abs_le.1 (abs_pyRound_sub_le ((r.otime + p.tt - r.data.1) * r.sr))
    have a2 := abs_le.1 (abs_pyRound_sub_le ((p.tt * r.fraction + r.mw) * r.sr))
    have hp2 : (Pads.scanPads r.w r.ttmax r.sr (4 * r.mw)).2 = 162 := by
      rw [Pads.scanPads_snd _ _ _ (by omega), hw, hmw, httmax]
      norm_num [Pads.prePad, Pads.postPad, Pads.Windows.ltaMax, Pads.Windows.staMax]
    have h3 : (r.data.2 - r.data.1) * r.sr + r.sr ≤
        (r.otime + p.tt - r.data.1) * r.sr + (p.tt * r.fraction + r.mw) * r.sr := by
      have : r.data.2 - r.data.1 + 1 ≤ r.otime + p.tt - r.data.1 + (p.tt * r.fraction + r.mw) := by
        simp only [Pads.locateWindow, PickPlot.Run.data]
        rw [hp2, htt, hfr, hmw]
        linarith
      nlinarith
    have h4 : (n : ℚ) ≤ (pyRound ((r.otime + p.tt - r.data.1) * r.sr) : ℚ) +
        pyRound ((p.tt * r.fraction + r.mw) * r.sr) := by linarith [a1.1, a2.1]
    exact_mod_cast h4
  split_ifs <;> omega

/-- C152: an event one of whose figures fails, and which is written without figures, ends the run. -/
theorem C152_ends_run (figures : List (Except PickPlot.Err PickPlot.Figure)) (e : PickPlot.Err) (he : .error e ∈ figures)
    {σ : Type} (mw : ℚ) (outcome : Locate.Trig → Locate.Outcome σ) (off on : Locate.Trig → Locate.Later)
    (x : Locate.Trig) (hon : on x = PickPlot.later figures)
    (hw : (Locate.locateEvents mw outcome off [x]).written ≠ []) (xs : List Locate.Trig) :
    Locate.locateEvents mw outcome on (x :: xs) = ⟨[], false⟩ := by
  have h1 : on x = .raisesBeforeWrite := by
    rw [hon]
    unfold PickPlot.later
    rw [if_neg]
    intro h
    exact absurd (List.all_eq_true.1 h _ he) (by simp)
  unfold Locate.locateEvents at hw ⊢
  cases ho : outcome x with
  | archiveEmpty => rw [ho] at hw; simp [Locate.locateEvents] at hw
  | dataGap => rw [ho] at hw; simp [Locate.locateEvents] at hw
  | dataAvailability => rw [ho] at hw; simp [Locate.locateEvents] at hw
  | other => rfl
  | computed rows map =>
    rw [ho] at hw
    simp only at hw ⊢
    cases ha : Locate.addComputeOutput rows map with
    | none => rfl
    | some ev =>
      rw [ha] at hw
      simp only at hw ⊢
      by_cases hin : Locate.inMarginalWindow x.time ev.otime mw
      · rw [if_pos hin]
        cases ht : Locate.trim2window mw ev with
        | none => rfl
        | some ev' => simp only [h1]
      · rw [if_neg hin] at hw
        simp [Locate.locateEvents] at hw

/-- C152: figures that are all made change nothing. -/
theorem C152_fine (figures : List (Except PickPlot.Err PickPlot.Figure)) (h : ∀ f ∈ figures, ∃ fig, f = .ok fig) :
    PickPlot.later figures = .fine := by
  unfold PickPlot.later
  rw [if_pos]
  rw [List.all_eq_true]
  intro f hf
  obtain ⟨fig, rfl⟩ := h f hf
  rfl

/-! ## Examples -/

/-- A phase of the examples: 100 samples of onset function. -/
def exPhase (name : Str) (tt : ℚ) (w : Win) : Phase := ⟨name, List.replicate 100 1, tt, w⟩

/-- C152 is false of the code: with three phases, the axes of the second phase's onset function show the arrival and
window of the third. -/
theorem C152_violated_three : ∃ fig, pickSummary 0 10 0 100
      [exPhase ['P'] 2 ⟨15, 20, 25⟩, exPhase ['S'] 4 ⟨35, 40, 45⟩, exPhase ['X'] 6 ⟨55, 60, 65⟩]
      [List.replicate 100 1] [] = .ok fig ∧ (4, ['S']) ∈ fig.onsets ∧
      ∀ pn ∈ fig.panels, pn.phase ≠ ['S'] ∧ (pn.axis = 4 → pn.phase = ['X'] ∧ pn.arrival = 6) := by
  obtain ⟨fig, h⟩ := C152_drawn_partial 0 10 0 100
    [exPhase ['P'] 2 ⟨15, 20, 25⟩, exPhase ['S'] 4 ⟨35, 40, 45⟩, exPhase ['X'] 6 ⟨55, 60, 65⟩]
    [List.replicate 100 1] [] (by simp) ⟨by simp [exPhase], by simp [exPhase], by simp [exPhase]⟩ (by simp [exPhase])
    (by simp)
  refine ⟨fig, h, ?_⟩
  obtain ⟨first, last, lo, hi, tLo, tHi, h1, h2, -, -, -, -, h7, -, h9⟩ := pickSummary_ok h
  simp at h1 h2
  subst h1 h2
  refine ⟨by rw [h9]; simp [onsetAxes, exPhase], ?_⟩
  intro pn hpn
  obtain ⟨axis, ha, hok⟩ := forall₂_exists_left (mapM_ok_forall₂ h7) hpn
  obtain ⟨p', hp', -, -, e3, e4, e5, -⟩ := panel_ok hok
  subst hp'
  rw [e4, e5, e3]
  simp only [axisList, List.mem_cons, List.not_mem_nil, or_false] at ha
  rcases ha with rfl | rfl | rfl | rfl | rfl <;> simp [exPhase]

/-- C152 is false of the code: a single phase that is called neither P nor S has its onset function on axes without its
arrival, its window and its picks. -/
theorem C152_violated_name : ∃ fig, pickSummary 0 10 0 100 [exPhase ['P', 'n'] 2 ⟨15, 20, 25⟩] [List.replicate 100 1] [] =
      .ok fig ∧ fig.onsets = [(3, ['P', 'n'])] ∧ ∀ pn ∈ fig.panels, pn.axis ≠ 3 := by
  obtain ⟨fig, h⟩ := C152_drawn_partial 0 10 0 100 [exPhase ['P', 'n'] 2 ⟨15, 20, 25⟩] [List.replicate 100 1] [] (by simp)
    ⟨by simp [exPhase], by simp [exPhase], by simp [exPhase]⟩ (by simp [exPhase]) (by simp)
  refine ⟨fig, h, ?_⟩
  obtain ⟨first, last, lo, hi, tLo, tHi, h1, h2, -, -, -, -, h7, -, h9⟩ := pickSummary_ok h
  refine ⟨by rw [h9]; simp [onsetAxes, exPhase], ?_⟩
  intro pn hpn
  obtain ⟨axis, ha, hok⟩ := forall₂_exists_left (mapM_ok_forall₂ h7) hpn
  obtain ⟨p', -, -, -, e3, -⟩ := panel_ok hok
  rw [e3]
  simp [axisList, exPhase] at ha
  omega

/-- The hypotheses of the theorems on figures that are made are met by two phases with a pick each. -/
example : ∃ fig, pickSummary 0 10 0 100 [exPhase ['P'] 2 ⟨15, 20, 25⟩, exPhase ['S'] 4 ⟨35, 40, 45⟩]
    [List.replicate 100 1, List.replicate 100 1] [⟨['P'], some (21 / 10, 1)⟩, ⟨['S'], none⟩] = .ok fig :=
  C152_drawn_partial 0 10 0 100 _ _ _ (by simp) ⟨by simp [exPhase], by simp [exPhase], by simp [exPhase]⟩
    (by simp [exPhase]) (by simp)

/-- A run of the examples: default windows, marginal window and `fraction_tt`, 10 Hz. -/
def exPickRun (ttmax : ℚ) : PickPlot.Run := ⟨⟨(1 / 5, 1), [(1 / 5, 1)]⟩, ttmax, 2, 1 / 10, 10, 100, 100⟩

/-- A station of the examples with one phase and the window of the picker. -/
def exPickPhases (ttmax tt : ℚ) (n : ℕ) : List Phase :=
  [⟨['S'], List.replicate n 1, tt,
    (distinguish n [determineWindow 100 (exPickRun ttmax).data.1 10 2 tt (1 / 10)]).headD ⟨0, 0, 0⟩⟩]

theorem exPickPhases_windows (ttmax tt : ℚ) (n : ℕ) :
    Spec.PickerWindows (exPickRun ttmax) n (exPickPhases ttmax tt n) := rfl

theorem exPickPhases_mem {ttmax tt : ℚ} {n : ℕ} {p : Phase} (h : p ∈ exPickPhases ttmax tt n) :
    p.tt = tt ∧ p.onset.length = n := by
  unfold exPickPhases at h
  rw [List.mem_singleton] at h
  subst h
  exact ⟨rfl, List.length_replicate⟩

/-- The hypotheses of `C152_locate_partial` are met. -/
example (n : ℕ) (hn : 400 ≤ n) :
    ∃ fig, pickSummary (exPickRun 10).data.1 10 100 n (exPickPhases 10 10 n) [List.replicate n 1] [] = .ok fig := by
  have h1 : ((exPickRun 10).data.2 - (exPickRun 10).data.1) * (exPickRun 10).sr ≤ (400 : ℕ) := by decide +kernel
  have h2 : ((400 : ℕ) : ℚ) ≤ n := by exact_mod_cast hn
  have h3 : (2 : ℚ) * (exPickRun 10).w.ltaMax = 2 := by
    norm_num [exPickRun, Pads.Windows.ltaMax]
  refine C152_locate_partial (exPickRun 10) (by norm_num [Pads.Windows.Nonneg, exPickRun]) (by decide)
    (by norm_num [exPickRun]) (by norm_num [exPickRun]) (by decide +kernel) n (h1.trans h2) _ (List.cons_ne_nil _ _)
    (exPickPhases_windows _ _ _) ?_ (List.pairwise_singleton _ _) ?_ (fun p hp => (exPickPhases_mem hp).2) _
    (by intro y hy; rw [List.mem_singleton.1 hy]; simp) _
  · intro p hp
    rw [(exPickPhases_mem hp).1]
    norm_num [exPickRun]
  · intro p hp
    rw [(exPickPhases_mem hp).1, h3]
    norm_num [exPickRun]

/-- The hypotheses of `C152_violated` are met. -/
example (traces : List (List ℚ)) : ∃ e, pickSummary (exPickRun 150).data.1 10 100 1817 (exPickPhases 150 150 1817) traces [] =
    .error e :=
  C152_violated (exPickRun 150) rfl rfl rfl rfl (by decide) le_rfl 1817 (by decide +kernel) _
    (exPickPhases_windows _ _ _) _ rfl rfl rfl _ _

end QM
