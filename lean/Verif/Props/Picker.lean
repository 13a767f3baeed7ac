import Verif.Lemmas.Picker

/-!
# Phase picking: C57-C60, C75, C76
-/

namespace QM
open QM.Picker

/-! ## C57, C75: pick windows -/

/-- C57: if the modelled arrivals are in order and inside an onset function of `n` samples, and each
window holds its arrival, then after adjustment the windows still belong to the same arrivals in the
same order, hold them, lie inside the onset function and do not overlap. -/
theorem C57_windows_ordered (n : ℤ) (ws : List Win) (hg : ∀ w ∈ ws, w.lo ≤ w.arr ∧ w.arr ≤ w.hi)
    (hs : ws.Pairwise (fun a b => a.arr ≤ b.arr)) (hin : ∀ w ∈ ws, 0 ≤ w.arr ∧ w.arr ≤ n) :
    (distinguish n ws).map Win.arr = ws.map Win.arr ∧
    (∀ w ∈ distinguish n ws, 0 ≤ w.lo ∧ w.lo ≤ w.arr ∧ w.arr ≤ w.hi ∧ w.hi ≤ n) ∧
    (distinguish n ws).Pairwise (fun a b => a.hi ≤ b.lo) := by
  have hsh := distinguish_shrinks n ws
  have harr : (distinguish n ws).map Win.arr = ws.map Win.arr := by
    have := hsh.imp (fun a b h => h.1)
    rw [← List.forall₂_eq_eq_eq, List.forall₂_map_left_iff, List.forall₂_map_right_iff]
    exact this
  refine ⟨harr, ?_⟩
  cases ws with
  | nil => simp [distinguish, clampFirst, distinguishPairs, clampLast]
  | cons w ws =>
    set w0 : Win := { w with lo := if w.lo < 0 then 0 else w.lo } with hw0
    have hw := hg w (by simp)
    have h0 : 0 ≤ w0.lo ∧ w0.lo ≤ w0.arr := by
      have := (hin w (by simp)).1
      simp only [hw0]
      split_ifs <;> omega
    obtain ⟨p1, p2, pre, l, p3, p4⟩ := pairsFrom_spec ws w0
      (by
        intro x hx
        rcases List.mem_cons.1 hx with rfl | hx
        · exact ⟨h0.2, hw.2⟩
        · exact hg x (by simp [hx]))
      (by
        rw [List.pairwise_cons] at hs ⊢
        exact hs)
      (by
        intro x hx
        rcases List.mem_cons.1 hx with rfl | hx
        · exact (hin w (by simp)).1
        · exact (hin x (by simp [hx])).1)
    have e : distinguish n (w :: ws) = clampLast n (pairsFrom w0 ws) := rfl
    have harr2 : ∀ x ∈ distinguish n (w :: ws), x.arr ≤ n := by
      intro x hx
      have : x.arr ∈ (w :: ws).map Win.arr := by rw [← harr]; exact List.mem_map_of_mem hx
      obtain ⟨y, hy, hyx⟩ := List.mem_map.1 this
      rw [← hyx]
      exact (hin y hy).2
    rw [e, p3, clampLast_append] at harr2 ⊢
    rw [p3] at p1 p2
    have hl := p1 l (by simp)
    have hln : l.arr ≤ n := harr2 { l with hi := if l.hi > n then n else l.hi } (by simp)
    constructor
    · intro x hx
      rcases List.mem_append.1 hx with hx | hx
      · obtain ⟨⟨g1, g2⟩, g3⟩ := p1 x (by simp [hx])
        exact ⟨le_trans h0.1 g3, g1, g2, (p4 x hx).trans hln⟩
      · rw [List.mem_singleton] at hx
        subst hx
        obtain ⟨⟨g1, g2⟩, g3⟩ := hl
        refine ⟨le_trans h0.1 g3, g1, ?_, ?_⟩ <;> simp only <;> split_ifs <;> omega
    · rw [List.pairwise_append] at p2 ⊢
      refine ⟨p2.1, by simp, ?_⟩
      intro a ha b hb
      rw [List.mem_singleton] at hb
      subst hb
      exact p2.2.2 a ha l (by simp)

/-- C57: adjustment never enlarges a window. -/
theorem C57_windows_shrink (n : ℤ) (ws : List Win) :
    List.Forall₂ (fun o i => o.arr = i.arr ∧ i.lo ≤ o.lo ∧ o.hi ≤ i.hi) (distinguish n ws) ws :=
  distinguish_shrinks n ws

/-- C57: the windows made for an event of locate satisfy the hypotheses: with the pads used by
locate, an origin time in the marginal window, and traveltimes up to the largest one, every window
holds its arrival and the arrival is inside the onset function (of `n` samples, covering the window
read). -/
theorem C57_in_locate (w : Pads.Windows) (hw : w.Nonneg) (ttmax trigger otime mw tt fraction : ℚ)
    (sr n : ℕ) (hsr : 0 < sr) (htt : 0 ≤ tt ∧ tt ≤ ttmax) (hf : 0 ≤ fraction)
    (hot : |trigger - otime| < mw)
    (hn : ((Pads.locateWindow trigger mw (Pads.scanPads w ttmax sr (4 * mw))).2 -
      (Pads.locateWindow trigger mw (Pads.scanPads w ttmax sr (4 * mw))).1) * sr ≤ n) :
    let W := determineWindow otime
      (Pads.locateWindow trigger mw (Pads.scanPads w ttmax sr (4 * mw))).1 sr mw tt fraction
    W.lo ≤ W.arr ∧ W.arr ≤ W.hi ∧ 0 ≤ W.arr ∧ W.arr ≤ n := by
  intro W
  have hsr' : (0 : ℚ) < sr := by exact_mod_cast hsr
  obtain ⟨o1, o2⟩ := abs_lt.1 hot
  have hmw : 0 < mw := lt_of_le_of_lt (abs_nonneg _) hot
  set pads := Pads.scanPads w ttmax sr (4 * mw) with hpads
  have hpre0 : 0 ≤ Pads.prePad w := Pads.prePad_nonneg hw
  have hlta := Pads.Windows.ltaMax_nonneg hw
  have hpost0 : ttmax ≤ Pads.postPad w ttmax := by
    unfold Pads.postPad
    have := Int.le_ceil (ttmax + 2 * w.ltaMax)
    linarith
  have hceil : (0 : ℚ) ≤ (⌈(4 * mw + (Pads.prePad w + Pads.postPad w ttmax)) * (6 / 100)⌉ : ℤ) := by
    have : (0 : ℚ) ≤ (4 * mw + (Pads.prePad w + Pads.postPad w ttmax)) * (6 / 100) := by
      apply mul_nonneg _ (by norm_num)
      linarith [htt.1, htt.2]
    exact_mod_cast Int.ceil_nonneg this
  have hp1 : 0 ≤ pads.1 := by
    have : (0 : ℚ) ≤ Pads.prePad w +
      (⌈(4 * mw + (Pads.prePad w + Pads.postPad w ttmax)) * (6 / 100)⌉ : ℤ) := by linarith
    rw [hpads]
    unfold Pads.scanPads Pads.pad Pads.trim2sample
    simp only
    apply div_nonneg _ (by norm_num)
    have h2 : (0 : ℚ) ≤ ((⌈(Pads.prePad w +
      (⌈(4 * mw + (Pads.prePad w + Pads.postPad w ttmax)) * (6 / 100)⌉ : ℤ)) * sr⌉ : ℤ) : ℚ) / sr * 1000 := by
      apply mul_nonneg (div_nonneg _ hsr'.le) (by norm_num)
      exact_mod_cast Int.ceil_nonneg (mul_nonneg this hsr'.le)
    rw [Pads.pyInt_of_nonneg h2]
    exact_mod_cast Int.floor_nonneg.2 h2
  have hp2 : ttmax ≤ pads.2 := by
    have hp : ttmax ≤ (⌈ttmax + 2 * w.ltaMax⌉ : ℤ) := by
      have := Int.le_ceil (ttmax + 2 * w.ltaMax)
      linarith
    rw [hpads, Pads.scanPads_snd w ttmax (4 * mw) hsr]
    push_cast
    linarith
  have es : Pads.time2sample (tt * fraction + mw) sr = pyRound ((tt * fraction + mw) * sr) :=
    Pads.time2sample_nat _ _
  have ea : W.arr = pyRound ((otime + tt - (Pads.locateWindow trigger mw pads).1) * sr) :=
    Pads.time2sample_nat _ _
  have hs0 : 0 ≤ Pads.time2sample (tt * fraction + mw) sr := by
    rw [es, show (0 : ℤ) = pyRound 0 by decide +kernel]
    apply pyRound_mono
    have := mul_nonneg htt.1 hf
    positivity
  have ha0 : 0 ≤ W.arr := by
    rw [ea, show (0 : ℤ) = pyRound 0 by decide +kernel]
    apply pyRound_mono
    apply mul_nonneg _ hsr'.le
    simp only [Pads.locateWindow]
    linarith [htt.1]
  refine ⟨?_, ?_, ha0, ?_⟩
  · show W.arr - _ ≤ W.arr; omega
  · show W.arr ≤ W.arr + _; omega
  · rw [ea]
    have h1 : (otime + tt - (Pads.locateWindow trigger mw pads).1) * sr ≤ (n : ℤ) := by
      refine le_trans ?_ (by exact_mod_cast hn)
      apply mul_le_mul_of_nonneg_right _ hsr'.le
      simp only [Pads.locateWindow]
      linarith [htt.2]
    have := pyRound_mono h1
    rwa [pyRound_int] at this

/-- P and S at one station: the windows overlap and are cut at the midpoint 45; the lower end of the
first is moved to 0. -/
example : distinguish 70 [⟨-5, 30, 65⟩, ⟨20, 60, 100⟩] = [⟨0, 30, 45⟩, ⟨45, 60, 70⟩] := by
  decide +kernel

/-- C75 is violated: these two windows do not overlap, and the second loses samples 12 to 14. -/
theorem C75_violated : ∃ (n : ℤ) (ws : List Win), (∀ w ∈ ws, 0 ≤ w.lo ∧ w.lo ≤ w.arr ∧ w.arr ≤ w.hi ∧
    w.hi ≤ n) ∧ ws.Pairwise (fun a b => a.hi ≤ b.lo) ∧ distinguish n ws ≠ ws :=
  ⟨100, [⟨9, 10, 11⟩, ⟨12, 20, 28⟩], by decide +kernel, by decide +kernel, by decide +kernel⟩

theorem pairsFrom_id : ∀ (ws : List Win) (w : Win),
    (w :: ws).IsChain (fun a b => a.hi ≤ (a.arr + b.arr).tdiv 2 ∧ (a.arr + b.arr).tdiv 2 ≤ b.lo) →
    pairsFrom w ws = w :: ws
  | [], _, _ => rfl
  | w2 :: ws, w, h => by
    rw [List.isChain_cons_cons] at h
    have e : ({ w2 with lo := max ((w.arr + w2.arr).tdiv 2) w2.lo } : Win) = w2 := by
      rw [max_eq_right h.1.2]
    rw [pairsFrom, e, pairsFrom_id ws w2 h.2, min_eq_right h.1.1]

theorem clampLast_id (n : ℤ) : ∀ ws : List Win, (∀ w ∈ ws, w.hi ≤ n) → clampLast n ws = ws
  | [], _ => rfl
  | [w], h => by
    have := h w (by simp)
    rw [clampLast, if_neg (by omega)]
  | w :: w' :: ws, h => by
    rw [clampLast, clampLast_id n (w' :: ws) (fun x hx => h x (by simp [hx]))]

/-- C75, what does hold: windows inside the onset function that keep to their own side of the
midpoint between neighbouring arrivals are left as they are. -/
theorem C75_unchanged_partial (n : ℤ) (ws : List Win) (h : ∀ w ∈ ws, 0 ≤ w.lo ∧ w.hi ≤ n)
    (hm : ws.IsChain (fun a b => a.hi ≤ (a.arr + b.arr).tdiv 2 ∧ (a.arr + b.arr).tdiv 2 ≤ b.lo)) :
    distinguish n ws = ws := by
  cases ws with
  | nil => rfl
  | cons w ws =>
    have h0 := (h w (by simp)).1
    have e : clampFirst (w :: ws) = w :: ws := by
      rw [clampFirst, if_neg (by omega)]
    rw [distinguish, e, distinguishPairs, pairsFrom_id ws w hm]
    exact clampLast_id n _ (fun x hx => (h x hx).2)

example : distinguish 100 [⟨5, 10, 15⟩, ⟨15, 20, 25⟩] = [⟨5, 10, 15⟩, ⟨15, 20, 25⟩] :=
  C75_unchanged_partial 100 _ (by decide +kernel) (by decide +kernel)

/-! ## C58: the peak -/

/-- C58: `(s, e)` is returned exactly if `[s, e)` is a maximal run of at least two samples above the
threshold which contains the first maximum of the window. -/
theorem C58_peak_iff (w : List ℚ) (t : ℚ) (s e : ℕ) :
    findPeak w (some t) = some (s, e) ↔
      Spec.IsRunAbove w t s e ∧ s + 2 ≤ e ∧ ∃ m, Spec.FirstMax w m ∧ s ≤ m ∧ m < e := by
  constructor
  · intro h
    by_cases hex : ∃ v ∈ w, t < v
    · obtain ⟨s', e', m, hf, hr, h1, h2, he⟩ := findPeak_eq hex
      rw [h] at he
      split_ifs at he with hc
      simp only [Option.some.injEq, Prod.mk.injEq] at he
      obtain ⟨rfl, rfl⟩ := he
      exact ⟨hr, by omega, m, hf, h1, h2⟩
    · rw [findPeak_none_of (by push Not at hex; exact hex)] at h
      simp at h
  · rintro ⟨hr, h2, m, hf, h3, h4⟩
    have hex : ∃ v ∈ w, t < v := by
      have hs : s < w.length := lt_of_lt_of_le hr.1 hr.2.1
      refine ⟨w.getD s 0, ?_, hr.2.2.1 s (le_refl _) hr.1⟩
      rw [List.getD_eq_getElem _ _ hs]; exact List.getElem_mem hs
    obtain ⟨s', e', m', hf', hr', h1', h2', he⟩ := findPeak_eq hex
    have := firstMax_unique hf hf'
    subst this
    obtain ⟨rfl, rfl⟩ := isRun_unique hr hr' ⟨h3, h4⟩ ⟨h1', h2'⟩
    rw [he, if_neg (by omega)]

/-- C58: no peak is reported exactly if nothing exceeds the threshold or the run around the first
maximum is a single sample. -/
theorem C58_no_peak_iff (w : List ℚ) (t : ℚ) :
    findPeak w (some t) = none ↔
      (∀ v ∈ w, v ≤ t) ∨ ∃ m, Spec.FirstMax w m ∧ Spec.IsRunAbove w t m (m + 1) := by
  constructor
  · intro h
    by_cases hex : ∃ v ∈ w, t < v
    · right
      obtain ⟨s, e, m, hf, hr, h1, h2, he⟩ := findPeak_eq hex
      rw [h] at he
      split_ifs at he with hc
      have h3 := hr.1
      have : s = m ∧ e = m + 1 := by omega
      obtain ⟨rfl, rfl⟩ := this
      exact ⟨s, hf, hr⟩
    · left; push Not at hex; exact hex
  · rintro (h | ⟨m, hf, hr⟩)
    · exact findPeak_none_of h
    · have hex : ∃ v ∈ w, t < v := by
        refine ⟨w.getD m 0, ?_, hr.2.2.1 m (le_refl _) hr.1⟩
        rw [List.getD_eq_getElem _ _ hf.1]; exact List.getElem_mem hf.1
      obtain ⟨s', e', m', hf', hr', h1', h2', he⟩ := findPeak_eq hex
      have := firstMax_unique hf hf'
      subst this
      obtain ⟨rfl, rfl⟩ := isRun_unique hr hr' ⟨le_refl _, by omega⟩ ⟨h1', h2'⟩
      rw [he, if_pos (by omega)]

/-- Two runs above 2; the maximum is in the second. A single sample is no peak. -/
example : findPeak [1, 3, 4, 1, 3, 9, 5, 2, 6] (some 2) = some (4, 7) ∧
    findPeak [1, 3, 3, 1, 9, 1] (some 2) = none ∧ findPeak [1, 2] (some 2) = none := by
  decide +kernel

/-! ## C59: picks -/

/-- C59: whatever the curve fit does, a pick that is reported lies strictly inside its window. -/
theorem C59_strictly_inside (fit : List ℚ → List ℚ → ℚ → Fit) (onset : List ℚ) (sr : ℚ)
    (thr : Option ℚ) (w : Win) (μ σ snr : ℚ)
    (h : fitGaussian fit onset sr thr w = .ok (.at μ σ snr)) :
    (w.lo : ℚ) < μ * sr ∧ μ * sr < w.hi ∧ 0 ≤ σ := by
  unfold fitGaussian at h
  split at h
  · simp at h
  · simp only at h
    split at h
    · simp at h
    · split at h
      · simp at h
      · simp at h
      · simp at h
      · split_ifs at h with hc
        · simp only [Except.ok.injEq, Pick.at.injEq] at h
          obtain ⟨rfl, rfl, rfl⟩ := h
          exact ⟨hc.1, hc.2, abs_nonneg _⟩
        · simp at h

/-- C59 is violated: a peak at the first sample of a window that starts with the onset function
makes the picker raise, whatever the curve fit would do. -/
theorem C59_violated : ∃ (onset : List ℚ) (thr : ℚ) (w : Win), 0 ≤ w.lo ∧ w.lo ≤ w.arr ∧
    w.arr ≤ w.hi ∧ w.hi ≤ onset.length ∧
    ∀ fit sr, fitGaussian fit onset sr (some thr) w = .error .valueError :=
  ⟨[5, 6, 1, 1, 1], 2, ⟨0, 1, 4⟩, by decide +kernel, by decide +kernel, by decide +kernel,
    by decide +kernel, fun fit sr => by
      have h1 : findPeak (pySlice [5, 6, 1, 1, 1] 0 4) (some 2) = some (0, 2) := by decide +kernel
      have h2 : argmax (pySlice ([5, 6, 1, 1, 1] : List ℚ) (0 + (((0 : ℕ) : ℤ) - 1))
        (0 + (((2 : ℕ) : ℤ) + 1))) = none := by decide +kernel
      unfold fitGaussian
      rw [h1]
      simp only
      rw [h2]⟩

/-- What is assumed of scipy's `curve_fit`: it raises `TypeError` only if it gets fewer data points
than the three parameters. -/
def FitNeedsThree (fit : List ℚ → List ℚ → ℚ → Fit) : Prop :=
  ∀ x y p, fit x y p = .typeError → y.length < 3

/-- C59, what does hold: a window that starts after the first sample never makes the picker raise.
-/
theorem C59_no_abort_partial (fit : List ℚ → List ℚ → ℚ → Fit) (hfit : FitNeedsThree fit)
    (onset : List ℚ) (sr : ℚ) (thr : Option ℚ) (w : Win) (hlo : 1 ≤ w.lo) :
    ∃ r, fitGaussian fit onset sr thr w = .ok r := by
  unfold fitGaussian
  split
  · exact ⟨_, rfl⟩
  · next a b hp =>
    obtain ⟨h1, h2⟩ := findPeak_bounds hp
    rw [pySlice_length] at h2
    have hl1 : pyIdx onset.length w.lo = min w.lo.toNat onset.length := pyIdx_nonneg (by omega)
    have hl2 := pyIdx_le onset.length w.hi
    rw [hl1] at h2
    have hylen : 3 ≤ (pySlice onset (w.lo + ((a : ℤ) - 1)) (w.lo + ((b : ℤ) + 1))).length := by
      rw [pySlice_length, pyIdx_nonneg (by omega), pyIdx_nonneg (by omega)]
      omega
    simp only
    split
    · next hm =>
      exfalso
      obtain ⟨m, hm'⟩ := argmax_isSome
        (w := pySlice onset (w.lo + ((a : ℤ) - 1)) (w.lo + ((b : ℤ) + 1)))
        (by intro h; rw [h] at hylen; simp at hylen)
      rw [hm'] at hm
      simp at hm
    · next m hm =>
      split
      · exact ⟨_, rfl⟩
      · next hf => exact absurd (hfit _ _ _ hf) (by omega)
      · exact ⟨_, rfl⟩
      · split_ifs <;> exact ⟨_, rfl⟩

theorem mapM_ok_forall₂ {α β ε : Type} {f : α → Except ε β} : ∀ {l : List α} {r : List β},
    l.mapM f = .ok r → List.Forall₂ (fun a b => f a = .ok b) l r
  | [], r, h => by
    simp only [List.mapM_nil, pure, Except.pure, Except.ok.injEq] at h
    subst h; exact .nil
  | a :: l, r, h => by
    rw [List.mapM_cons] at h
    cases h1 : f a with
    | error e => rw [h1] at h; simp [bind, Except.bind] at h
    | ok b =>
      cases h2 : l.mapM f with
      | error e => rw [h1, h2] at h; simp [bind, Except.bind] at h
      | ok bs =>
        rw [h1, h2] at h
        simp only [bind, Except.bind, pure, Except.pure, Except.ok.injEq] at h
        subst h
        exact .cons h1 (mapM_ok_forall₂ h2)

theorem mapM_ok_of {α β ε : Type} {f : α → Except ε β} : ∀ {l : List α},
    (∀ a ∈ l, ∃ b, f a = .ok b) → ∃ r, l.mapM f = .ok r
  | [], _ => ⟨[], rfl⟩
  | a :: l, h => by
    obtain ⟨b, hb⟩ := h a (by simp)
    obtain ⟨bs, hbs⟩ := mapM_ok_of (l := l) (fun x hx => h x (by simp [hx]))
    refine ⟨b :: bs, ?_⟩
    rw [List.mapM_cons, hb, hbs]
    rfl

/-- C59, for a whole event: if every search window, before adjustment, starts after the first sample
of the onset functions, picking comes to its end. -/
theorem C59_picking_completes_partial (c : Ctx) (hfit : ∀ s p, FitNeedsThree (c.fit s p))
    (onsets : List (Str × List (Str × List ℚ))) (hne : ∀ s ∈ onsets, s.2 ≠ [])
    (hlo : ∀ s ∈ onsets, ∀ w ∈ rawWindows c s.1 s.2, 1 ≤ w.lo) :
    ∃ rows, pickPhases c onsets = .ok rows := by
  unfold pickPhases
  obtain ⟨r, hr⟩ := mapM_ok_of (f := pickStation c) (l := onsets) (by
    intro s hs
    unfold pickStation
    rw [if_neg (hne s hs)]
    apply mapM_ok_of
    intro o ho
    have hw : 1 ≤ o.2.lo := by
      have hmem := (List.of_mem_zip ho).2
      have hsh := distinguish_shrinks ((s.2.getLast?.map fun o => o.2.length).getD 0 : ℕ)
        (rawWindows c s.1 s.2)
      obtain ⟨k, hk, hke⟩ := List.getElem_of_mem hmem
      have hk' : k < (rawWindows c s.1 s.2).length := by
        have := hsh.length_eq
        unfold stationWindows at hk
        omega
      have h1 := (List.forall₂_iff_get.1 hsh).2 k hk hk'
      have h2 := hlo s hs ((rawWindows c s.1 s.2)[k]) (List.getElem_mem hk')
      rw [← hke]
      exact le_trans h2 h1.2.1
    obtain ⟨p, hp⟩ := C59_no_abort_partial (c.fit s.1 o.1.1) (hfit _ _) o.1.2 c.sr
      (findThreshold c.method o.1.2 (stationWindows c s.1 s.2)) o.2 hw
    unfold pickOne
    rw [hp]
    cases p <;> exact ⟨_, rfl⟩)
  rw [hr]
  exact ⟨_, rfl⟩

/-- C59: the search windows of an event of locate do start after the first sample: origin time in
the marginal window, a search fraction of at most 1 and a pad of at least two samples. -/
theorem C59_locate_windows (trigger otime mw tt fraction : ℚ) (pads : ℚ × ℚ) (sr : ℕ)
    (htt : 0 ≤ tt) (hf : fraction ≤ 1) (hot : |trigger - otime| < mw) (hp : 2 ≤ pads.1 * sr) :
    1 ≤ (determineWindow otime (Pads.locateWindow trigger mw pads).1 sr mw tt fraction).lo := by
  obtain ⟨o1, o2⟩ := abs_lt.1 hot
  have hsr : (0 : ℚ) ≤ sr := by positivity
  show 1 ≤ Pads.time2sample _ _ - Pads.time2sample _ _
  rw [Pads.time2sample_nat, Pads.time2sample_nat]
  have h1 := abs_le.1 (abs_pyRound_sub_le ((otime + tt - (Pads.locateWindow trigger mw pads).1) * sr))
  have h2 := abs_le.1 (abs_pyRound_sub_le ((tt * fraction + mw) * sr))
  have h3 : pads.1 * sr ≤ (otime + tt - (Pads.locateWindow trigger mw pads).1) * sr -
      (tt * fraction + mw) * sr := by
    rw [← sub_mul]
    apply mul_le_mul_of_nonneg_right _ hsr
    simp only [Pads.locateWindow]
    have : tt * fraction ≤ tt := mul_le_of_le_one_right htt hf
    linarith
  have h4 : (1 : ℚ) ≤ (pyRound ((otime + tt - (Pads.locateWindow trigger mw pads).1) * sr) : ℚ) -
      pyRound ((tt * fraction + mw) * sr) := by linarith [h1.1, h2.2]
  exact_mod_cast h4

/-! ## C60: the threshold -/

theorem foldl_sliceSet (ws : List Win) (onset : List ℚ) :
    ws.foldl (fun l w => pySliceSet l w.lo w.hi (-1)) onset =
      onset.mapIdx fun i x => if ∃ w ∈ ws, pyIdx onset.length w.lo ≤ i ∧ i < pyIdx onset.length w.hi
        then -1 else x := by
  induction ws generalizing onset with
  | nil =>
    apply List.ext_getElem <;> simp
  | cons w ws ih =>
    rw [List.foldl_cons, ih]
    have hl : (pySliceSet onset w.lo w.hi (-1)).length = onset.length := by
      simp [pySliceSet]
    rw [hl]
    unfold pySliceSet
    rw [List.mapIdx_mapIdx]
    congr 1
    funext i x
    simp only [Function.comp_apply, List.mem_cons, exists_eq_or_imp]
    by_cases h1 : pyIdx onset.length w.lo ≤ i ∧ i < pyIdx onset.length w.hi
    · simp [h1]
    · simp [h1]

/-- The sample `i` is outside every window. -/
def OutsideAll (ws : List Win) (i : ℕ) : Prop := ∀ w ∈ ws, ¬ (w.lo ≤ (i : ℤ) ∧ (i : ℤ) < w.hi)

instance (ws : List Win) (i : ℕ) : Decidable (OutsideAll ws i) := by
  unfold OutsideAll; infer_instance

theorem noise_eq (onset : List ℚ) (ws : List Win) (hw : ∀ w ∈ ws, 0 ≤ w.lo ∧ 0 ≤ w.hi) :
    noise onset ws =
      (onset.zipIdx.filter fun p => decide (1 < p.1 ∧ OutsideAll ws p.2)).map Prod.fst := by
  unfold noise
  rw [foldl_sliceSet, List.mapIdx_eq_zipIdx_map]
  have key : ∀ (l : List (ℚ × ℕ)), (∀ p ∈ l, p.2 < onset.length) →
      (l.map fun p => if ∃ w ∈ ws, pyIdx onset.length w.lo ≤ p.2 ∧ p.2 < pyIdx onset.length w.hi
        then -1 else p.1).filter (fun v => decide (1 < v)) =
      (l.filter fun p => decide (1 < p.1 ∧ OutsideAll ws p.2)).map Prod.fst := by
    intro l hl
    induction l with
    | nil => rfl
    | cons p l ih =>
      have hp := hl p (by simp)
      have hiff : (∃ w ∈ ws, pyIdx onset.length w.lo ≤ p.2 ∧ p.2 < pyIdx onset.length w.hi) ↔
          ¬ OutsideAll ws p.2 := by
        unfold OutsideAll
        push Not
        constructor
        · rintro ⟨w, h1, h2, h3⟩
          obtain ⟨a, b⟩ := hw w h1
          rw [pyIdx_nonneg a] at h2
          rw [pyIdx_nonneg b] at h3
          exact ⟨w, h1, by omega, by omega⟩
        · rintro ⟨w, h1, h2, h3⟩
          obtain ⟨a, b⟩ := hw w h1
          refine ⟨w, h1, ?_, ?_⟩
          · rw [pyIdx_nonneg a]; omega
          · rw [pyIdx_nonneg b]; omega
      rw [List.map_cons, List.filter_cons, List.filter_cons, ih (fun q hq => hl q (by simp [hq]))]
      by_cases ho : OutsideAll ws p.2
      · have hv : (if ∃ w ∈ ws, pyIdx onset.length w.lo ≤ p.2 ∧ p.2 < pyIdx onset.length w.hi
            then -1 else p.1) = p.1 := if_neg (fun h => hiff.1 h ho)
        rw [hv]
        by_cases h1 : 1 < p.1
        · simp [h1, ho]
        · simp [h1]
      · have hv : (if ∃ w ∈ ws, pyIdx onset.length w.lo ≤ p.2 ∧ p.2 < pyIdx onset.length w.hi
            then -1 else p.1) = -1 := if_pos (hiff.2 ho)
        rw [hv]
        have : ¬ (1 : ℚ) < -1 := by norm_num
        simp [ho, this]
  exact key _ (by
    intro p hp
    obtain ⟨v, i⟩ := p
    rw [List.mem_zipIdx_iff_getElem?] at hp
    exact (List.getElem?_eq_some_iff.1 hp).1)

/-- C60: the threshold is a function of the samples outside every pick window with a value above 1,
and of nothing else (`f` depends only on the method). -/
theorem C60_noise_samples (m : Method) : ∃ f : List ℚ → Option ℚ, ∀ (onset : List ℚ) (ws : List Win),
    (∀ w ∈ ws, 0 ≤ w.lo ∧ 0 ≤ w.hi) →
    findThreshold m onset ws =
      f ((onset.zipIdx.filter fun p => decide (1 < p.1 ∧ OutsideAll ws p.2)).map Prod.fst) := by
  cases m with
  | percentile f => exact ⟨f, fun onset ws h => by rw [← noise_eq onset ws h]; rfl⟩
  | mad k =>
    exact ⟨fun l => if l = [] then none else some (npMedian l + Trigger.calculateMad l * k),
      fun onset ws h => by rw [← noise_eq onset ws h]; rfl⟩

/-- C60: changing samples inside the windows, or samples that are and stay at most 1, does not change
the threshold. -/
theorem C60_non_interference (m : Method) (a b : List ℚ) (ws : List Win)
    (hw : ∀ w ∈ ws, 0 ≤ w.lo ∧ 0 ≤ w.hi) (hl : a.length = b.length)
    (h : ∀ i < a.length, OutsideAll ws i →
      a.getD i 0 = b.getD i 0 ∨ (a.getD i 0 ≤ 1 ∧ b.getD i 0 ≤ 1)) :
    findThreshold m a ws = findThreshold m b ws := by
  have : noise a ws = noise b ws := by
    rw [noise_eq a ws hw, noise_eq b ws hw]
    have key : ∀ (a b : List ℚ) (k : ℕ), a.length = b.length →
        (∀ i < a.length, OutsideAll ws (k + i) →
          a.getD i 0 = b.getD i 0 ∨ (a.getD i 0 ≤ 1 ∧ b.getD i 0 ≤ 1)) →
        ((a.zipIdx k).filter fun p => decide (1 < p.1 ∧ OutsideAll ws p.2)).map Prod.fst =
        ((b.zipIdx k).filter fun p => decide (1 < p.1 ∧ OutsideAll ws p.2)).map Prod.fst := by
      intro a
      induction a with
      | nil =>
        intro b k hl _
        cases b with
        | nil => rfl
        | cons y b => simp at hl
      | cons x a ih =>
        intro b k hl h
        cases b with
        | nil => simp at hl
        | cons y b =>
          rw [List.zipIdx_cons, List.zipIdx_cons, List.filter_cons, List.filter_cons]
          have hrest := ih b (k + 1) (by simpa using hl) (by
            intro i hi ho
            have := h (i + 1) (by simpa using hi) (by rwa [show k + (i + 1) = k + 1 + i by omega])
            simpa using this)
          simp only [Bool.decide_and] at hrest
          by_cases ho : OutsideAll ws k
          · rcases h 0 (by simp) (by simpa using ho) with h0 | ⟨h0, h1⟩
            · simp only [List.getD_cons_zero] at h0
              subst h0
              by_cases hx : 1 < x
              · simp [hx, ho, hrest]
              · simp [hx, hrest]
            · simp only [List.getD_cons_zero] at h0 h1
              simp [not_lt.2 h0, not_lt.2 h1, hrest]
          · simp [ho, hrest]
    exact key a b 0 hl (by simpa using h)
  unfold findThreshold
  rw [this]

/-- The window samples 9 and 8 and the padding 1 do not count: median 2 plus 8 times the MAD. -/
example : findThreshold (.mad 8) [1, 2, 2, 9, 8, 3] [⟨3, 4, 5⟩] = some 2 ∧
    findThreshold (.mad 8) [1, 2, 2, 700, -8, 3] [⟨3, 4, 5⟩] = some 2 ∧
    findThreshold (.mad 8) [1, 9, 9] [⟨1, 1, 3⟩] = none := by decide +kernel

/-! ## C76: the table of picks -/

/-- C76: a table of picks has one row per onset function, in order; the modelled time is origin time
plus traveltime; the residual is the pick minus the modelled time and is smaller in size than the
search window plus one sample. -/
theorem C76_rows (c : Ctx) (sr : ℕ) (hsr : 0 < sr) (hc : c.sr = sr)
    (onsets : List (Str × List (Str × List ℚ))) (rows : List Row)
    (h : pickPhases c onsets = .ok rows) :
    rows.map (fun r => (r.station, r.phase)) =
      onsets.flatMap (fun s => s.2.map fun o => (s.1, o.1)) ∧
    ∀ r ∈ rows, r.modelled = c.otime + c.traveltime r.station r.phase ∧
      r.residual = r.pick.map (fun t => t - r.modelled) ∧
      ∀ d ∈ r.residual, |d| < c.traveltime r.station r.phase * c.fraction + c.mw + 1 / sr := by
  have hsr' : (0 : ℚ) < sr := by exact_mod_cast hsr
  unfold pickPhases at h
  cases hm : onsets.mapM (pickStation c) with
  | error e => rw [hm] at h; simp [Except.map] at h
  | ok rs =>
    rw [hm] at h
    simp only [Except.map, Except.ok.injEq] at h
    subst h
    have hf := mapM_ok_forall₂ hm
    clear hm
    induction hf with
    | nil => simp
    | @cons s r os rs hs _ ih =>
      rw [List.flatten_cons, List.map_append, List.flatMap_cons, ih.1]
      unfold pickStation at hs
      split_ifs at hs with hne
      have hz := mapM_ok_forall₂ hs
      have hlen : s.2.length = (stationWindows c s.1 s.2).length := by
        have := (distinguish_shrinks ((s.2.getLast?.map fun o => o.2.length).getD 0 : ℕ)
          (rawWindows c s.1 s.2)).length_eq
        unfold stationWindows
        rw [this]
        simp [rawWindows]
      have hrow : ∀ o row, pickOne c s.1 (stationWindows c s.1 s.2) o = .ok row →
          row.station = s.1 ∧ row.phase = o.1.1 := by
        intro o row ho
        unfold pickOne at ho
        split at ho
        · simp at ho
        · simp only at ho
          split at ho <;> simp only [Except.ok.injEq] at ho <;> subst ho <;> exact ⟨rfl, rfl⟩
      refine ⟨?_, ?_⟩
      · congr 1
        have h1 : r.map (fun r => (r.station, r.phase)) =
            (s.2.zip (stationWindows c s.1 s.2)).map (fun o => (s.1, o.1.1)) := by
          have : List.Forall₂ (fun a b => a = b) (r.map (fun r => (r.station, r.phase)))
              ((s.2.zip (stationWindows c s.1 s.2)).map (fun o => (s.1, o.1.1))) := by
            rw [List.forall₂_map_left_iff, List.forall₂_map_right_iff]
            refine (hz.imp ?_).flip
            intro o row ho
            obtain ⟨h1, h2⟩ := hrow o row ho
            simp [flip, h1, h2]
          rwa [List.forall₂_eq_eq_eq] at this
        rw [h1]
        have h2 : (s.2.zip (stationWindows c s.1 s.2)).map (fun o => (s.1, o.1.1)) =
            ((s.2.zip (stationWindows c s.1 s.2)).map Prod.fst).map (fun o => (s.1, o.1)) := by
          rw [List.map_map]; rfl
        rw [h2, List.map_fst_zip (le_of_eq hlen)]
      · intro row hrowmem
        rcases List.mem_append.1 hrowmem with hr | hr
        · obtain ⟨k, hk, hke⟩ := List.getElem_of_mem hr
          have hk1 : k < (s.2.zip (stationWindows c s.1 s.2)).length := by
            rw [hz.length_eq]; exact hk
          have hone := (List.forall₂_iff_get.1 hz).2 k hk1 hk
          simp only [List.get_eq_getElem] at hone
          rw [hke] at hone
          have hk2 : k < s.2.length := by rw [List.length_zip] at hk1; omega
          have hk3 : k < (stationWindows c s.1 s.2).length := by omega
          rw [List.getElem_zip] at hone
          have hsh := distinguish_shrinks ((s.2.getLast?.map fun o => o.2.length).getD 0 : ℕ)
            (rawWindows c s.1 s.2)
          have hk4 : k < (rawWindows c s.1 s.2).length := by simpa [rawWindows] using hk2
          have hwin := (List.forall₂_iff_get.1 hsh).2 k hk3 hk4
          simp only [List.get_eq_getElem] at hwin
          have hraw : (rawWindows c s.1 s.2)[k] = determineWindow c.otime c.starttime c.sr c.mw
              (c.traveltime s.1 s.2[k].1) c.fraction := by simp [rawWindows]
          obtain ⟨-, hw1, hw2⟩ := hwin
          rw [hraw] at hw1 hw2
          change _ ≤ ((stationWindows c s.1 s.2)[k]).lo at hw1
          change ((stationWindows c s.1 s.2)[k]).hi ≤ _ at hw2
          obtain ⟨hst, hph⟩ := hrow _ _ hone
          simp only at hph
          unfold pickOne at hone
          split at hone
          · simp at hone
          · next pk hpk =>
            simp only at hone hpk
            split at hone
            · simp only [Except.ok.injEq] at hone
              subst hone
              exact ⟨rfl, rfl, by simp⟩
            · next μ σ snr =>
              simp only [Except.ok.injEq] at hone
              have hin := C59_strictly_inside _ _ _ _ _ _ _ _ hpk
              subst hone
              refine ⟨rfl, rfl, ?_⟩
              intro d hd
              simp only [Option.mem_def, Option.some.injEq] at hd
              subst hd
              set tt := c.traveltime s.1 s.2[k].1
              have e1 : (determineWindow c.otime c.starttime c.sr c.mw tt c.fraction).lo =
                  pyRound ((c.otime + tt - c.starttime) * sr) -
                    pyRound ((tt * c.fraction + c.mw) * sr) := by
                rw [hc]
                show Pads.time2sample _ _ - Pads.time2sample _ _ = _
                rw [Pads.time2sample_nat, Pads.time2sample_nat]
              have e2 : (determineWindow c.otime c.starttime c.sr c.mw tt c.fraction).hi =
                  pyRound ((c.otime + tt - c.starttime) * sr) +
                    pyRound ((tt * c.fraction + c.mw) * sr) := by
                rw [hc]
                show Pads.time2sample _ _ + Pads.time2sample _ _ = _
                rw [Pads.time2sample_nat, Pads.time2sample_nat]
              have h1 := abs_le.1 (abs_pyRound_sub_le ((c.otime + tt - c.starttime) * sr))
              have h2 := abs_le.1 (abs_pyRound_sub_le ((tt * c.fraction + c.mw) * sr))
              have hw1' : (((determineWindow c.otime c.starttime c.sr c.mw tt c.fraction).lo : ℤ) : ℚ) ≤
                  (((stationWindows c s.1 s.2)[k]).lo : ℚ) := by exact_mod_cast hw1
              have hw2' : (((stationWindows c s.1 s.2)[k]).hi : ℚ) ≤
                  (((determineWindow c.otime c.starttime c.sr c.mw tt c.fraction).hi : ℤ) : ℚ) := by
                exact_mod_cast hw2
              rw [e1] at hw1'
              rw [e2] at hw2'
              push_cast at hw1' hw2'
              rw [hc] at hin
              have hb : |(c.starttime + μ - (c.otime + tt)) * sr| <
                  (tt * c.fraction + c.mw + 1 / sr) * sr := by
                have : (tt * c.fraction + c.mw + 1 / sr) * sr = (tt * c.fraction + c.mw) * sr + 1 := by
                  field_simp
                rw [this, abs_lt]
                constructor <;> nlinarith [hin.1, hin.2.1, h1.1, h1.2, h2.1, h2.2]
              rw [abs_mul, abs_of_pos hsr'] at hb
              exact lt_of_mul_lt_mul_right hb hsr'.le
        · exact ih.2 row hr

/-- Two stations; a fit that returns its initial mean. -/
def exPickCtx : Ctx where
  otime := 10
  starttime := 0
  sr := 1
  mw := 1
  fraction := 1 / 2
  method := .mad 1
  traveltime := fun s p => if p = ['P'] then 4 else if s = ['A'] then 8 else 6
  fit := fun _ _ _ _ p => .ok 3 (some p) 1

def exPickOnsets : List (Str × List (Str × List ℚ)) :=
  let f (k : ℕ) : List ℚ := (List.range 30).map fun i =>
    if i = k then 9 else if i = k + 1 then 8 else if i < 4 then 2 else 1
  [(['A'], [(['P'], f 13), (['S'], f 19)]), (['B'], [(['P'], f 2)])]

example : (pickPhases exPickCtx exPickOnsets).toOption.map
    (fun l => l.map fun r => (r.station, r.modelled, r.pick, r.residual)) =
    some [(['A'], 14, some 13, some (-1)), (['A'], 18, some 19, some 1), (['B'], 14, none, none)] := by
  decide +kernel

end QM
