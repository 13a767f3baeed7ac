import Verif.Model.Reports
import Verif.Props.Lut

/-!
# C156, C157, C158: the reports of the settings
-/

namespace QM
open QM.Reports

/-! ## Specification -/

/-- How numbers are printed: numbers that print alike are equal, and no newline or space is printed. -/
structure Spec.Prints {N V : Type} (val : N → V) (sh : N → Reports.Str) : Prop where
  inj : ∀ x y, sh x = sh y → val x = val y
  line : ∀ x, '\n' ∉ sh x
  word : ∀ x, ' ' ∉ sh x

/-- `line` is one of the lines of the text. -/
def Spec.HasLine (text line : Reports.Str) : Prop :=
  '\n' ∉ line ∧ ∃ before after, text = before ++ line ++ '\n' :: after ∧ (before = [] ∨ before.getLast? = some '\n')

/-! ## Proof -/

private theorem cut_newline {a a' b b' : Reports.Str} (c : Char) (ha : c ∉ a) (ha' : c ∉ a')
    (h : a ++ c :: b = a' ++ c :: b') : a = a' ∧ b = b' := by
  induction a generalizing a' with
  | nil =>
    cases a' with
    | nil => simpa using h
    | cons x a' =>
      simp only [List.nil_append, List.cons_append, List.cons.injEq] at h
      exact absurd (h.1 ▸ List.mem_cons_self) ha'
  | cons x a ih =>
    cases a' with
    | nil =>
      simp only [List.nil_append, List.cons_append, List.cons.injEq] at h
      exact absurd (h.1 ▸ List.mem_cons_self) ha
    | cons y a' =>
      simp only [List.cons_append, List.cons.injEq] at h
      simp only [List.mem_cons, not_or] at ha ha'
      obtain ⟨h1, h2⟩ := ih ha.2 ha'.2 h.2
      exact ⟨by rw [h.1, h1], h2⟩

theorem unlines_inj {l l' : List Reports.Str} (h : ∀ s ∈ l, '\n' ∉ s) (h' : ∀ s ∈ l', '\n' ∉ s)
    (e : unlines l = unlines l') : l = l' := by
  induction l generalizing l' with
  | nil =>
    cases l' with
    | nil => rfl
    | cons s l' => simp [unlines] at e
  | cons s l ih =>
    cases l' with
    | nil => simp [unlines] at e
    | cons s' l' =>
      have e' : s ++ '\n' :: unlines l = s' ++ '\n' :: unlines l' := by
        simpa [unlines] using e
      obtain ⟨h1, h2⟩ := cut_newline '\n' (h s List.mem_cons_self) (h' s' List.mem_cons_self) e'
      rw [h1, ih (fun s hs => h s (List.mem_cons_of_mem _ hs)) (fun s hs => h' s (List.mem_cons_of_mem _ hs)) h2]

theorem hasLine_of_mem {l : List Reports.Str} {s : Reports.Str} (hs : s ∈ l) (hn : '\n' ∉ s) :
    Spec.HasLine (unlines l) s := by
  obtain ⟨a, b, rfl⟩ := List.append_of_mem hs
  refine ⟨hn, unlines a, unlines b, by simp [unlines], ?_⟩
  rcases List.eq_nil_or_concat a with rfl | ⟨a', x, rfl⟩
  · left; rfl
  · right
    simp [unlines]

private theorem mid {p x x' q : Reports.Str} (h : p ++ x ++ q = p ++ x' ++ q) : x = x' := by
  rw [List.append_assoc, List.append_assoc] at h
  exact List.append_cancel_right (List.append_cancel_left h)

/-! ## C156: the report of trigger -/

def triggerHead {N : Type} (sh : N → Reports.Str) (t : TriggerSettings N) : List Reports.Str :=
  ["\tTrigger parameters:".toList,
    "\t\tPre/post pad = ".toList ++ sh t.padding ++ " s".toList,
    "\t\tMarginal window = ".toList ++ sh t.marginalWindow ++ " s".toList,
    "\t\tMinimum event interval  = ".toList ++ sh t.minEventInterval ++ " s".toList,
    [],
    "\t\tTriggering from the ".toList ++ (if t.normalise then "normalised ".toList else []) ++
      "maximum coalescence trace.".toList,
    [],
    "\t\tTrigger threshold method: ".toList ++ t.method.text]

theorem trigger_lines {N V : Type} {val : N → V} {sh : N → Reports.Str} (P : Spec.Prints val sh)
    (t : TriggerSettings N) : ∀ s ∈ triggerHead sh t ++ thresholdLines sh t ++ smoothLines sh t, '\n' ∉ s := by
  have hl := P.line
  have key : ∀ (p q : Reports.Str) x, '\n' ∉ p → '\n' ∉ q → '\n' ∉ p ++ sh x ++ q := by
    intro p q x hp hq
    simp only [List.mem_append, not_or]
    exact ⟨⟨hp, hl x⟩, hq⟩
  have key' : ∀ (p : Reports.Str) x, '\n' ∉ p → '\n' ∉ p ++ sh x := by
    intro p x hp
    simp only [List.mem_append, not_or]
    exact ⟨hp, hl x⟩
  intro s hs
  simp only [List.mem_append] at hs
  rcases hs with (hs | hs) | hs
  · simp only [triggerHead, List.mem_cons, List.not_mem_nil, or_false] at hs
    rcases hs with rfl | rfl | rfl | rfl | rfl | rfl | rfl | rfl
    · decide
    · exact key _ _ _ (by decide) (by decide)
    · exact key _ _ _ (by decide) (by decide)
    · exact key _ _ _ (by decide) (by decide)
    · decide
    · cases t.normalise <;> decide
    · decide
    · cases t.method <;> decide
  · unfold thresholdLines at hs
    cases hm : t.method <;> rw [hm] at hs <;>
      simp only [List.mem_cons, List.not_mem_nil, or_false] at hs
    · rcases hs with rfl | rfl
      · exact key' _ _ (by decide)
      · decide
    · rcases hs with rfl | rfl | rfl
      · exact key' _ _ (by decide)
      · exact key' _ _ (by decide)
      · decide
    · rcases hs with rfl | rfl | rfl
      · exact key' _ _ (by decide)
      · exact key' _ _ (by decide)
      · decide
  · unfold smoothLines at hs
    cases hm : t.smooth <;> rw [hm] at hs
    · simp at hs
    · simp only [if_true, List.mem_cons, List.not_mem_nil, or_false] at hs
      rcases hs with rfl | rfl | rfl
      · decide
      · exact key _ _ _ (by decide) (by decide)
      · exact key _ _ _ (by decide) (by decide)

/-- C156: the report logged by trigger determines what is triggered.  Two Trigger objects that log the same report
find the same events (and end with the same exception), on the same scan data, over the same period and region. -/
theorem C156_report_determines_events {N : Type} (val : N → ℚ) (sh : N → Reports.Str) (P : Spec.Prints val sh)
    (t t' : TriggerSettings N) (h : triggerReport sh t = triggerReport sh t')
    (smooth : ℚ → ℚ → List Trigger.Row → List Trigger.Row) (region : Option Trigger.Region)
    (read : ℚ → ℚ → ℚ → Option Trigger.ScanData) (s e : ℚ) :
    triggerRun val smooth region read s e t = triggerRun val smooth region read s e t' := by
  have hl := unlines_inj (trigger_lines P t) (trigger_lines P t') h
  rw [List.append_assoc, List.append_assoc] at hl
  obtain ⟨h1, h2⟩ := List.append_inj hl rfl
  simp only [triggerHead, List.cons.injEq, and_true, true_and] at h1
  obtain ⟨e1, e2, e3, e4, e5⟩ := h1
  have v1 := P.inj _ _ (mid e1)
  have v2 := P.inj _ _ (mid e2)
  have v3 := P.inj _ _ (mid e3)
  have v4 : t.normalise = t'.normalise := by
    have := mid e4
    cases hb : t.normalise <;> cases hb' : t'.normalise <;> rw [hb, hb'] at this <;> simp_all
  have v5 : t.method = t'.method := by
    have := List.append_cancel_left e5
    cases hb : t.method <;> cases hb' : t'.method <;> rw [hb, hb'] at this <;>
      first | rfl | exact absurd this (by decide)
  have v6 : thresholdOf val t = thresholdOf val t' ∧ smoothLines sh t = smoothLines sh t' := by
    unfold thresholdLines at h2
    unfold thresholdOf
    rw [← v5] at h2 ⊢
    cases hb : t.method <;> rw [hb] at h2 <;>
      simp only [List.cons_append, List.nil_append, List.cons.injEq, true_and] at h2
    · exact ⟨by rw [P.inj _ _ (List.append_cancel_left h2.1)], h2.2⟩
    · exact ⟨by simp only; rw [P.inj _ _ (List.append_cancel_left h2.1), P.inj _ _ (List.append_cancel_left h2.2.1)],
        h2.2.2⟩
    · exact ⟨by simp only; rw [P.inj _ _ (List.append_cancel_left h2.1), P.inj _ _ (List.append_cancel_left h2.2.1)],
        h2.2.2⟩
  have v7 : (if t.smooth then smooth (val t.sigma) (val t.width) else id) =
      if t'.smooth then smooth (val t'.sigma) (val t'.width) else id := by
    have h3 := v6.2
    unfold smoothLines at h3
    cases hb : t.smooth <;> cases hb' : t'.smooth <;> rw [hb, hb'] at h3
    · rfl
    · simp at h3
    · simp at h3
    · simp only [if_true, List.cons.injEq, true_and, and_true] at h3 ⊢
      rw [P.inj _ _ (mid h3.1), P.inj _ _ (mid h3.2)]
  unfold triggerRun
  rw [v1, v2, v3, v4, v6.1, v7]

/-- C156: the report states, under its label, each setting that is used. -/
theorem C156_states_settings {N V : Type} (val : N → V) (sh : N → Reports.Str) (P : Spec.Prints val sh)
    (t : TriggerSettings N) :
    Spec.HasLine (triggerReport sh t) ("\t\tPre/post pad = ".toList ++ sh t.padding ++ " s".toList) ∧
    Spec.HasLine (triggerReport sh t) ("\t\tMarginal window = ".toList ++ sh t.marginalWindow ++ " s".toList) ∧
    Spec.HasLine (triggerReport sh t) ("\t\tMinimum event interval  = ".toList ++ sh t.minEventInterval ++ " s".toList) ∧
    (t.normalise = true →
      Spec.HasLine (triggerReport sh t) "\t\tTriggering from the normalised maximum coalescence trace.".toList) ∧
    (t.normalise = false →
      Spec.HasLine (triggerReport sh t) "\t\tTriggering from the maximum coalescence trace.".toList) ∧
    (t.method = .static → Spec.HasLine (triggerReport sh t) "\t\tTrigger threshold method: static".toList ∧
      Spec.HasLine (triggerReport sh t) ("\t\tStatic threshold = ".toList ++ sh t.staticThreshold)) ∧
    (t.method = .mad → Spec.HasLine (triggerReport sh t) "\t\tTrigger threshold method: mad".toList ∧
      Spec.HasLine (triggerReport sh t) ("\t\tMAD Window     = ".toList ++ sh t.madWindow) ∧
      Spec.HasLine (triggerReport sh t) ("\t\tMAD Multiplier = ".toList ++ sh t.madMultiplier)) ∧
    (t.method = .medianRatio → Spec.HasLine (triggerReport sh t) "\t\tTrigger threshold method: median_ratio".toList ∧
      Spec.HasLine (triggerReport sh t) ("\t\tMedian Window     = ".toList ++ sh t.medianWindow) ∧
      Spec.HasLine (triggerReport sh t) ("\t\tMedian Multiplier = ".toList ++ sh t.medianMultiplier)) ∧
    (t.smooth = true →
      Spec.HasLine (triggerReport sh t) "\t\tApplying gaussian smoothing to the coalescence trace.".toList ∧
      Spec.HasLine (triggerReport sh t) ("\t\tGaussian kernel sigma = ".toList ++ sh t.sigma ++ " s".toList) ∧
      Spec.HasLine (triggerReport sh t)
        ("\t\tGaussian kernel truncated at ".toList ++ sh t.width ++ " standard deviations.".toList)) := by
  have all := trigger_lines P t
  have key : ∀ s, s ∈ triggerHead sh t ++ thresholdLines sh t ++ smoothLines sh t →
      Spec.HasLine (triggerReport sh t) s := fun s hs => hasLine_of_mem hs (all s hs)
  have hd : ∀ s, s ∈ triggerHead sh t → Spec.HasLine (triggerReport sh t) s := fun s hs =>
    key s (List.mem_append_left _ (List.mem_append_left _ hs))
  have th : ∀ s, s ∈ thresholdLines sh t → Spec.HasLine (triggerReport sh t) s := fun s hs =>
    key s (List.mem_append_left _ (List.mem_append_right _ hs))
  have sm : ∀ s, s ∈ smoothLines sh t → Spec.HasLine (triggerReport sh t) s := fun s hs =>
    key s (List.mem_append_right _ hs)
  have l0 : "\t\tTriggering from the normalised maximum coalescence trace.".toList =
      "\t\tTriggering from the ".toList ++ "normalised ".toList ++ "maximum coalescence trace.".toList := by decide
  have l1 : "\t\tTriggering from the maximum coalescence trace.".toList =
      "\t\tTriggering from the ".toList ++ [] ++ "maximum coalescence trace.".toList := by decide
  have l2 : "\t\tTrigger threshold method: static".toList =
      "\t\tTrigger threshold method: ".toList ++ MethodName.static.text := by decide
  have l3 : "\t\tTrigger threshold method: mad".toList =
      "\t\tTrigger threshold method: ".toList ++ MethodName.mad.text := by decide
  have l4 : "\t\tTrigger threshold method: median_ratio".toList =
      "\t\tTrigger threshold method: ".toList ++ MethodName.medianRatio.text := by decide
  have m1 : ∀ m, t.method = m → "\t\tTrigger threshold method: ".toList ++ m.text ∈ triggerHead sh t := by
    rintro m rfl
    simp only [triggerHead, List.mem_cons, true_or, or_true]
  rw [l0, l1, l2, l3, l4]
  refine ⟨hd _ ?_, hd _ ?_, hd _ ?_, fun h => hd _ ?_,
    fun h => hd _ ?_, fun h => ⟨hd _ (m1 _ h), th _ ?_⟩, fun h => ⟨hd _ (m1 _ h), th _ ?_, th _ ?_⟩,
    fun h => ⟨hd _ (m1 _ h), th _ ?_, th _ ?_⟩, fun h => ⟨sm _ ?_, sm _ ?_, sm _ ?_⟩⟩
  · simp only [triggerHead, List.mem_cons, true_or, or_true]
  · simp only [triggerHead, List.mem_cons, true_or, or_true]
  · simp only [triggerHead, List.mem_cons, true_or, or_true]
  · simp only [triggerHead, h, if_true, List.mem_cons, true_or, or_true]
  · simp only [triggerHead, h, Bool.false_eq_true, if_false, List.mem_cons, true_or, or_true]
  · simp only [thresholdLines, h, List.mem_cons, true_or]
  · simp only [thresholdLines, h, List.mem_cons, true_or]
  · simp only [thresholdLines, h, List.mem_cons, true_or, or_true]
  · simp only [thresholdLines, h, List.mem_cons, true_or]
  · simp only [thresholdLines, h, List.mem_cons, true_or, or_true]
  · simp only [smoothLines, h, if_true, List.mem_cons, true_or]
  · simp only [smoothLines, h, if_true, List.mem_cons, true_or, or_true]
  · simp only [smoothLines, h, if_true, List.mem_cons, true_or, or_true]

/-- C156: so does the legend of the threshold in the summary figure: it determines the threshold. -/
theorem C156_legend_determines_threshold {N : Type} (val : N → ℚ) (sh : N → Reports.Str) (P : Spec.Prints val sh)
    (t t' : TriggerSettings N) (h : thresholdLegend sh t = thresholdLegend sh t') :
    thresholdOf val t = thresholdOf val t' := by
  have last : ∀ (a : Reports.Str), (a ++ " (static)".toList).reverse.take 2 = ")c".toList := by
    intro a; rw [List.reverse_append]; rfl
  have last' : ∀ (a : Reports.Str), (a ++ "x)".toList).reverse.take 2 = ")x".toList := by
    intro a; rw [List.reverse_append]; rfl
  have hne : ∀ a b : Reports.Str, a ++ " (static)".toList ≠ b ++ "x)".toList := by
    intro a b e
    have := congrArg (fun l : Reports.Str => l.reverse.take 2) e
    simp only [last, last'] at this
    exact absurd this (by decide)
  have two : ∀ (p : Reports.Str) (a b a' b' : N),
      p ++ sh a ++ " s / ".toList ++ sh b ++ "x)".toList = p ++ sh a' ++ " s / ".toList ++ sh b' ++ "x)".toList →
      val a = val a' ∧ val b = val b' := by
    intro p a b a' b' e
    simp only [List.append_assoc] at e
    have e1 := List.append_cancel_left e
    obtain ⟨e2, e3⟩ := cut_newline ' ' (b := "s / ".toList ++ (sh b ++ "x)".toList))
      (b' := "s / ".toList ++ (sh b' ++ "x)".toList)) (P.word a) (P.word a') e1
    exact ⟨P.inj _ _ e2, P.inj _ _ (List.append_cancel_right (List.append_cancel_left e3))⟩
  unfold thresholdLegend at h
  unfold thresholdOf
  cases hm : t.method <;> cases hm' : t'.method <;> rw [hm, hm'] at h <;> simp only at h ⊢
  · rw [P.inj _ _ (List.append_cancel_right h)]
  · exact absurd h (hne _ _)
  · exact absurd h (hne _ _)
  · exact absurd h.symm (hne _ _)
  · obtain ⟨e1, e2⟩ := two _ _ _ _ _ h
    rw [e1, e2]
  · simp only [List.append_assoc] at h
    exact absurd (congrArg (fun l : Reports.Str => l.take 2) h) (by simp)
  · exact absurd h.symm (hne _ _)
  · simp only [List.append_assoc] at h
    exact absurd (congrArg (fun l : Reports.Str => l.take 2) h) (by simp)
  · obtain ⟨e1, e2⟩ := two _ _ _ _ _ h
    rw [e1, e2]

/-- The hypothesis of C156: numbers printed in unary, and a case in which two reports are equal although settings that
are not in use differ. -/
example : Spec.Prints (fun n : ℕ => (n : ℚ)) (fun n => List.replicate n '1') ∧
    triggerReport (fun n : ℕ => List.replicate n '1') ⟨.mad, 1, 3, 8, 3, 2, 2, 4, false, 12, false, 1, 4⟩ =
      triggerReport (fun n : ℕ => List.replicate n '1') ⟨.mad, 9, 3, 8, 5, 5, 2, 4, false, 12, false, 7, 7⟩ ∧
    triggerReport (fun n : ℕ => List.replicate n '1') ⟨.mad, 1, 3, 8, 3, 2, 2, 4, false, 12, false, 1, 4⟩ ≠
      triggerReport (fun n : ℕ => List.replicate n '1') ⟨.static, 1, 3, 8, 3, 2, 2, 4, false, 12, false, 1, 4⟩ := by
  refine ⟨⟨fun x y h => ?_, fun x h => ?_, fun x h => ?_⟩, by decide +kernel, by decide +kernel⟩
  · have := congrArg List.length h
    simp only [List.length_replicate] at this
    simp [this]
  · exact absurd (List.eq_of_mem_replicate h) (by decide)
  · exact absurd (List.eq_of_mem_replicate h) (by decide)

/-! ## C157: the printed lookup table -/

/-- The line wanted for a corner at `lon`, `lat`, `dep`. -/
def Spec.cornerText (f5 f3 : ℚ → Reports.Str) (name unit : Reports.Str) (lon lat dep : ℚ) : Reports.Str :=
  name ++ f5 lat ++ "°N ".toList ++ f5 lon ++ "°E ".toList ++ f3 dep ++ " ".toList ++ unit

theorem corners_ends (g : Grid.Grid) : ∃ rest, Grid.gridCorners g = g.ll :: rest ∧ rest.getLast? =
    some (fun a => g.ll a + ((g.count a : ℚ) - 1) * g.spacing a) := by
  have h0 : Grid.index2grid g ![0, 0, 0] = g.ll := by
    funext a
    fin_cases a <;> simp [Grid.index2grid]
  have h1 : Grid.index2grid g ![(g.count 0 : ℤ) - 1, (g.count 1 : ℤ) - 1, (g.count 2 : ℤ) - 1] =
      fun a => g.ll a + ((g.count a : ℚ) - 1) * g.spacing a := by
    funext a
    fin_cases a <;> simp [Grid.index2grid]
  refine ⟨(Grid.gridCorners g).tail, ?_, ?_⟩
  · rw [← h0]; rfl
  · rw [← h1]; rfl

/-- C157, what printing a lookup table shows of its grid: the depths of the two corners, the unit, the number of nodes
and their spacing.  Missing: the latitudes and longitudes, see C157_violated. -/
theorem C157_printed_table_partial (f5 f3 : ℚ → Reports.Str) (shc : Grid.V3 ℕ → Reports.Str)
    (shs : Grid.V3 ℚ → Reports.Str) (L : LutView) :
    ∃ low up, (lutLines f5 f3 shc shs L)[2]? = some ("\tLower-left corner  : ".toList ++ low ++ "°E ".toList ++
        f3 (L.toCoord L.grid.ll 2) ++ " ".toList ++ L.unitName) ∧
      (lutLines f5 f3 shc shs L)[3]? = some ("\tUpper-right corner : ".toList ++ up ++ "°E ".toList ++
        f3 (L.toCoord (fun a => L.grid.ll a + ((L.grid.count a : ℚ) - 1) * L.grid.spacing a) 2) ++ " ".toList ++
        L.unitName) ∧
      (lutLines f5 f3 shc shs L)[4]? = some ("\tNumber of nodes    : ".toList ++ shc L.grid.count) ∧
      (lutLines f5 f3 shc shs L)[5]? = some ("\tNode spacing       : ".toList ++ shs L.grid.spacing ++ " ".toList ++
        L.unitName) := by
  obtain ⟨rest, h1, h2⟩ := corners_ends L.grid
  have e1 : ((Grid.gridCorners L.grid).map L.toCoord).headD 0 = L.toCoord L.grid.ll := by rw [h1]; rfl
  have e2 : ((Grid.gridCorners L.grid).map L.toCoord).getLastD 0 =
      L.toCoord (fun a => L.grid.ll a + ((L.grid.count a : ℚ) - 1) * L.grid.spacing a) := by
    have h3 : (Grid.gridCorners L.grid).getLast? =
        some (fun a => L.grid.ll a + ((L.grid.count a : ℚ) - 1) * L.grid.spacing a) := by
      rw [h1]
      cases rest with
      | nil => simp at h2
      | cons x rest => rw [List.getLast?_cons_cons]; exact h2
    rw [List.getLastD_eq_getLast?, List.getLast?_map, h3]
    rfl
  unfold lutLines cornerLine
  simp only
  rw [e1, e2]
  refine ⟨f5 (L.toCoord L.grid.ll 0) ++ "°N ".toList ++ f5 (L.toCoord L.grid.ll 1), f5 (L.toCoord (fun a => L.grid.ll a +
    ((L.grid.count a : ℚ) - 1) * L.grid.spacing a) 0) ++ "°N ".toList ++ f5 (L.toCoord (fun a => L.grid.ll a +
    ((L.grid.count a : ℚ) - 1) * L.grid.spacing a) 1), ?_, ?_, rfl, rfl⟩
  · simp only [List.getElem?_cons_succ, List.getElem?_cons_zero, List.append_assoc]
  · simp only [List.getElem?_cons_succ, List.getElem?_cons_zero, List.append_assoc]

/-- C157 is violated: what is printed as the latitude of the lower-left corner is its longitude, and the other way
round, for every lookup table whose corner has a latitude and a longitude that print differently. -/
theorem C157_violated (f5 f3 : ℚ → Reports.Str) (shc : Grid.V3 ℕ → Reports.Str)
    (shs : Grid.V3 ℚ → Reports.Str) (hdeg : ∀ x, '°' ∉ f5 x) (L : LutView) (lon lat dep : ℚ)
    (hc : L.toCoord L.grid.ll = ![lon, lat, dep]) (hne : f5 lon ≠ f5 lat) :
    ∃ line, (lutLines f5 f3 shc shs L)[2]? = some line ∧
      line = Spec.cornerText f5 f3 "\tLower-left corner  : ".toList L.unitName lat lon dep ∧
      line ≠ Spec.cornerText f5 f3 "\tLower-left corner  : ".toList L.unitName lon lat dep := by
  obtain ⟨rest, h1, h2⟩ := corners_ends L.grid
  have e1 : ((Grid.gridCorners L.grid).map L.toCoord).headD 0 = L.toCoord L.grid.ll := by rw [h1]; rfl
  refine ⟨_, rfl, ?_, ?_⟩
  · unfold cornerLine Spec.cornerText
    rw [e1, hc]
    rfl
  · unfold cornerLine Spec.cornerText
    rw [e1, hc]
    intro h
    simp only [List.append_assoc] at h
    have h3 := List.append_cancel_left h
    exact hne (cut_newline '°' (hdeg _) (hdeg _) h3).1

/-- A lookup table whose corner is at 20°W, 64°N. -/
example : ∃ L : LutView, L.toCoord L.grid.ll = ![-20, 64, -1] ∧
    (fun x : ℚ => List.replicate x.num.toNat '1') (-20) ≠ (fun x : ℚ => List.replicate x.num.toNat '1') 64 := by
  refine ⟨⟨⟨![-20, 64, -1], ![1, 1, 1], ![2, 2, 2]⟩, id, "km".toList⟩, rfl, by decide +kernel⟩

/-! ## C158: the report of locate -/

private def filterLines {N : Type} (sh : N → Reports.Str) (a : AmpSettings N) : List Reports.Str :=
  if a.highpass then
        ["\t\tHighpass filter: ".toList, "\t\t    Filter frequency = ".toList ++ sh a.highpassFreq ++ " Hz".toList,
         "\t\t    Filter corners   = ".toList ++ sh a.corners]
      else if a.bandpass then
        ["\t\tBandpass filter: ".toList, "\t\t    Lowcut frequency  = ".toList ++ sh a.lowcut ++ " Hz".toList,
         "\t\t    Highcut frequency = ".toList ++ sh a.highcut ++ " Hz".toList,
         "\t\t    Filter corners    = ".toList ++ sh a.corners]
      else []

/-- C158, the amplitudes: the report determines every setting in use: the windows, the noise measure, the location, the
prominence and the filter, for objects as the constructor makes them (not both filters). -/
theorem C158_amplitude_report {N : Type} (val : N → ℚ) (sh : N → Reports.Str) (P : Spec.Prints val sh)
    (a a' : AmpSettings N) (hw : '\n' ∉ a.noiseMeasure ∧ '\n' ∉ a.locMethod)
    (hw' : '\n' ∉ a'.noiseMeasure ∧ '\n' ∉ a'.locMethod)
    (hb : ¬ (a.highpass = true ∧ a.bandpass = true)) (hb' : ¬ (a'.highpass = true ∧ a'.bandpass = true))
    (h : ampReport val sh a = ampReport val sh a') :
    val a.signal = val a'.signal ∧ val a.noise = val a'.noise ∧ a.noiseMeasure = a'.noiseMeasure ∧
    a.locMethod = a'.locMethod ∧ val a.prominence = val a'.prominence ∧ ampFilter val a = ampFilter val a' := by
  have key : ∀ (p q : Reports.Str) x, '\n' ∉ p → '\n' ∉ q → '\n' ∉ p ++ sh x ++ q := by
    intro p q x hp hq
    simp only [List.mem_append, not_or]
    exact ⟨⟨hp, P.line x⟩, hq⟩
  have key' : ∀ (p : Reports.Str) (x : Reports.Str), '\n' ∉ p → '\n' ∉ x → '\n' ∉ p ++ x := by
    intro p x hp hx
    simp only [List.mem_append, not_or]
    exact ⟨hp, hx⟩
  have all : ∀ a : AmpSettings N, '\n' ∉ a.noiseMeasure ∧ '\n' ∉ a.locMethod → ∀ s ∈
      (["\t    Amplitude parameters:".toList,
        "\t\tSignal window    = ".toList ++ sh a.signal ++ " s".toList,
        "\t\tNoise window     = ".toList ++ sh a.noise ++ " s".toList,
        "\t\tNoise measure    = ".toList ++ a.noiseMeasure,
        "\t\tLocation used    = ".toList ++ a.locMethod] ++
      (if val a.prominence ≠ 0 then ["\t\tProminence multiplier = ".toList ++ sh a.prominence] else []) ++
      filterLines sh a), '\n' ∉ s := by
    intro a hw s hs
    simp only [List.mem_append] at hs
    rcases hs with (hs | hs) | hs
    · simp only [List.mem_cons, List.not_mem_nil, or_false] at hs
      rcases hs with rfl | rfl | rfl | rfl | rfl
      · decide
      · exact key _ _ _ (by decide) (by decide)
      · exact key _ _ _ (by decide) (by decide)
      · exact key' _ _ (by decide) hw.1
      · exact key' _ _ (by decide) hw.2
    · split_ifs at hs
      · simp only [List.mem_singleton] at hs
        subst hs
        exact key' _ _ (by decide) (P.line _)
      · simp at hs
    · unfold filterLines at hs
      cases ha : a.highpass <;> rw [ha] at hs
      · cases hb : a.bandpass <;> rw [hb] at hs
        · simp at hs
        · simp only [Bool.false_eq_true, if_false, if_true, List.mem_cons, List.not_mem_nil, or_false] at hs
          rcases hs with rfl | rfl | rfl | rfl
          · decide
          · exact key _ _ _ (by decide) (by decide)
          · exact key _ _ _ (by decide) (by decide)
          · exact key' _ _ (by decide) (P.line _)
      · simp only [if_true, List.mem_cons, List.not_mem_nil, or_false] at hs
        rcases hs with rfl | rfl | rfl
        · decide
        · exact key _ _ _ (by decide) (by decide)
        · exact key' _ _ (by decide) (P.line _)
  have hl := unlines_inj (all a hw) (all a' hw') h
  clear h all
  rw [List.append_assoc [_, _, _, _, _] (ite _ _ _) _, List.append_assoc [_, _, _, _, _] (ite _ _ _) _] at hl
  obtain ⟨h1, h2⟩ := List.append_inj hl rfl
  simp only [List.cons.injEq, and_true, true_and] at h1
  obtain ⟨e1, e2, e3, e4⟩ := h1
  refine ⟨P.inj _ _ (mid e1), P.inj _ _ (mid e2), List.append_cancel_left e3, List.append_cancel_left e4, ?_⟩
  have hp : ∀ (x : N) (l : List Reports.Str) (c : Reports.Str) (r : List Reports.Str), c.take 3 ≠ "\t\tP".toList →
      (["\t\tProminence multiplier = ".toList ++ sh x] ++ l) ≠ c :: r := by
    intro x l c r hc he
    simp only [List.cons_append, List.nil_append, List.cons.injEq] at he
    exact hc (by rw [← he.1]; rfl)
  have hf : ∀ a : AmpSettings N, filterLines sh a = [] ∨ ∃ c r, filterLines sh a = c :: r ∧ c.take 3 ≠ "\t\tP".toList := by
    intro a
    unfold filterLines
    cases a.highpass
    · cases a.bandpass
      · left; rfl
      · right; exact ⟨_, _, rfl, by decide⟩
    · right; exact ⟨_, _, rfl, by decide⟩
  have hne : ∀ (x : N) (a : AmpSettings N) l, (["\t\tProminence multiplier = ".toList ++ sh x] ++ l) ≠ filterLines sh a := by
    intro x a l he
    rcases hf a with h | ⟨c, r, h, hc⟩
    · rw [h] at he; simp at he
    · rw [h] at he; exact hp x l c r hc he
  have h3 : val a.prominence = val a'.prominence ∧ filterLines sh a = filterLines sh a' := by
    by_cases z : val a.prominence ≠ 0 <;> by_cases z' : val a'.prominence ≠ 0
    · rw [if_pos z, if_pos z'] at h2
      simp only [List.cons_append, List.nil_append, List.cons.injEq] at h2
      exact ⟨P.inj _ _ (List.append_cancel_left h2.1), h2.2⟩
    · rw [if_pos z, if_neg z', List.nil_append] at h2
      exact absurd h2 (hne _ _ _)
    · rw [if_neg z, if_pos z', List.nil_append] at h2
      exact absurd h2.symm (hne _ _ _)
    · rw [if_neg z, if_neg z', List.nil_append, List.nil_append] at h2
      push Not at z z'
      exact ⟨by rw [z, z'], h2⟩
  refine ⟨h3.1, ?_⟩
  have h4 := h3.2
  unfold filterLines at h4
  unfold ampFilter
  cases c1 : a.highpass <;> cases c2 : a.bandpass <;> cases c1' : a'.highpass <;> cases c2' : a'.bandpass <;>
    simp only [c1, c2, c1', c2', and_self, not_true] at hb hb' <;>
    simp only [c1, c2, c1', c2', if_true, Bool.false_eq_true, if_false, List.cons.injEq, true_and, and_true,
      reduceCtorEq, List.nil_eq, Bool.or_self, Bool.or_true, Bool.or_false, Bool.true_or, Bool.false_or] at h4 ⊢
  · rw [P.inj _ _ (mid h4.1), P.inj _ _ (mid h4.2.1), P.inj _ _ (List.append_cancel_left h4.2.2)]
  · exact absurd h4.1 (by decide)
  · exact absurd h4.1 (by decide)
  · rw [P.inj _ _ (mid h4.1), P.inj _ _ (List.append_cancel_left h4.2)]

/-! The lines of the magnitude report. -/

set_option linter.unusedVariables false in
private def mB1 {N : Type} (sh : N → Reports.Str) (shl : List Reports.Str → Reports.Str) (m : MagSettings N) :
    List Reports.Str :=
  ["\t    Magnitude parameters:".toList,
    "\t\tA0 attenuation function = ".toList ++ m.a0,
    "\t\tUse hyp distance        = ".toList ++ shBool m.useHyp,
    "\t\tAmplitude feature       = ".toList ++ m.feature]

set_option linter.unusedVariables false in
private def mC {N : Type} (sh : N → Reports.Str) (shl : List Reports.Str → Reports.Str) (m : MagSettings N) :
    List Reports.Str :=
  (if m.corrections ≠ [] then ["\t\tUsing user-provided station corrections".toList] else [])

set_option linter.unusedVariables false in
private def mB2 {N : Type} (sh : N → Reports.Str) (shl : List Reports.Str → Reports.Str) (m : MagSettings N) :
    List Reports.Str :=
  ["\t\tAmplitude multiplier    = ".toList ++ sh m.multiplier,
     "\t\tUse weighted mean       = ".toList ++ shBool m.weighted]

set_option linter.unusedVariables false in
private def mT {N : Type} (sh : N → Reports.Str) (shl : List Reports.Str → Reports.Str) (m : MagSettings N) :
    List Reports.Str :=
  (match m.traceFilter with
     | some f => ["\t\tTrace filter            = ".toList ++ f]
     | none => [])

set_option linter.unusedVariables false in
private def mB3 {N : Type} (sh : N → Reports.Str) (shl : List Reports.Str → Reports.Str) (m : MagSettings N) :
    List Reports.Str :=
  ["\t\tNoise filter            = ".toList ++ sh m.noiseFilter ++ " x".toList]

set_option linter.unusedVariables false in
private def mS {N : Type} (sh : N → Reports.Str) (shl : List Reports.Str → Reports.Str) (m : MagSettings N) :
    List Reports.Str :=
  (match m.stationFilter with
     | some f => ["\t\tStation filter          = ".toList ++ shl f]
     | none => [])

set_option linter.unusedVariables false in
private def mD {N : Type} (sh : N → Reports.Str) (shl : List Reports.Str → Reports.Str) (m : MagSettings N) :
    List Reports.Str :=
  (match m.distFilter with
     | some f => ["\t\tDistance filter         = ".toList ++ sh f ++ " km".toList]
     | none => [])

set_option linter.unusedVariables false in
private def mU {N : Type} (sh : N → Reports.Str) (shl : List Reports.Str → Reports.Str) (m : MagSettings N) :
    List Reports.Str :=
  (if m.pickFilter then ["\t\tUsing only Amplitudes from picked traces.".toList] else [])

/-- A block of at most one line with a given beginning can be told from what follows it. -/
private theorem opt_split (p : Reports.Str) {o o' r r' : List Reports.Str} (h : o ++ r = o' ++ r')
    (ho : o = [] ∨ ∃ s, o = [s] ∧ s.take 3 = p) (ho' : o' = [] ∨ ∃ s, o' = [s] ∧ s.take 3 = p)
    (hr : ∀ s t, r = s :: t → s.take 3 ≠ p) (hr' : ∀ s t, r' = s :: t → s.take 3 ≠ p) : o = o' ∧ r = r' := by
  rcases ho with rfl | ⟨s, rfl, hs⟩ <;> rcases ho' with rfl | ⟨s', rfl, hs'⟩
  · exact ⟨rfl, h⟩
  · exact absurd hs' (hr s' r' h)
  · exact absurd hs (hr' s r h.symm)
  · simp only [List.cons_append, List.nil_append, List.cons.injEq] at h
    exact ⟨by rw [h.1], h.2⟩

private theorem take_lit {lit x : Reports.Str} (h : 3 ≤ lit.length) : (lit ++ x).take 3 = lit.take 3 := by
  rw [List.take_append_of_le_length h]

private theorem shBool_inj {b b' : Bool} (h : shBool b = shBool b') : b = b' := by
  cases b <;> cases b' <;> first | rfl | exact absurd h (by decide)

private theorem shBool_line (b : Bool) : '\n' ∉ shBool b := by cases b <;> decide

/-- C158, the magnitudes: the report determines every setting but the station corrections (it tells only whether there
are any) and `r2_only_used`: the attenuation function, the distance used, the amplitude, the multiplier, the weighting
and the filters.  Missing: see C158_violated_corrections. -/
theorem C158_magnitude_report_partial {N : Type} (val : N → ℚ) (sh : N → Reports.Str) (P : Spec.Prints val sh)
    (shl : List Reports.Str → Reports.Str) (hinj : ∀ l l', shl l = shl l' → l = l') (hline : ∀ l, '\n' ∉ shl l)
    (m m' : MagSettings N)
    (hw : '\n' ∉ m.a0 ∧ '\n' ∉ m.feature ∧ ∀ f, m.traceFilter = some f → '\n' ∉ f)
    (hw' : '\n' ∉ m'.a0 ∧ '\n' ∉ m'.feature ∧ ∀ f, m'.traceFilter = some f → '\n' ∉ f)
    (h : magReport sh shl m = magReport sh shl m') :
    m.a0 = m'.a0 ∧ m.useHyp = m'.useHyp ∧ m.feature = m'.feature ∧ (m.corrections = [] ↔ m'.corrections = []) ∧
    val m.multiplier = val m'.multiplier ∧ m.weighted = m'.weighted ∧ m.traceFilter = m'.traceFilter ∧
    val m.noiseFilter = val m'.noiseFilter ∧ m.stationFilter = m'.stationFilter ∧
    m.distFilter.map val = m'.distFilter.map val ∧ m.pickFilter = m'.pickFilter := by
  have key' : ∀ (p : Reports.Str) (x : Reports.Str), '\n' ∉ p → '\n' ∉ x → '\n' ∉ p ++ x := by
    intro p x hp hx
    simp only [List.mem_append, not_or]
    exact ⟨hp, hx⟩
  have all : ∀ m : MagSettings N, ('\n' ∉ m.a0 ∧ '\n' ∉ m.feature ∧ ∀ f, m.traceFilter = some f → '\n' ∉ f) → ∀ s ∈
      mB1 sh shl m ++ mC sh shl m ++ mB2 sh shl m ++ mT sh shl m ++ mB3 sh shl m ++ mS sh shl m ++ mD sh shl m ++
      mU sh shl m, '\n' ∉ s := by
    intro m hw s hs
    simp only [List.mem_append] at hs
    rcases hs with ((((((hs | hs) | hs) | hs) | hs) | hs) | hs) | hs
    · simp only [mB1, List.mem_cons, List.not_mem_nil, or_false] at hs
      rcases hs with rfl | rfl | rfl | rfl
      · decide
      · exact key' _ _ (by decide) hw.1
      · exact key' _ _ (by decide) (shBool_line _)
      · exact key' _ _ (by decide) hw.2.1
    · unfold mC at hs
      by_cases e : m.corrections ≠ []
      · rw [if_pos e, List.mem_singleton] at hs
        subst hs; decide
      · rw [if_neg e] at hs
        simp at hs
    · simp only [mB2, List.mem_cons, List.not_mem_nil, or_false] at hs
      rcases hs with rfl | rfl
      · exact key' _ _ (by decide) (P.line _)
      · exact key' _ _ (by decide) (shBool_line _)
    · unfold mT at hs
      cases e : m.traceFilter with
      | none => rw [e] at hs; simp at hs
      | some f =>
        rw [e] at hs
        simp only [List.mem_singleton] at hs
        subst hs
        exact key' _ _ (by decide) (hw.2.2 f e)
    · simp only [mB3, List.mem_singleton] at hs
      subst hs
      exact key' _ _ (key' _ _ (by decide) (P.line _)) (by decide)
    · unfold mS at hs
      cases e : m.stationFilter with
      | none => rw [e] at hs; simp at hs
      | some f =>
        rw [e] at hs
        simp only [List.mem_singleton] at hs
        subst hs
        exact key' _ _ (by decide) (hline f)
    · unfold mD at hs
      cases e : m.distFilter with
      | none => rw [e] at hs; simp at hs
      | some f =>
        rw [e] at hs
        simp only [List.mem_singleton] at hs
        subst hs
        exact key' _ _ (key' _ _ (by decide) (P.line _)) (by decide)
    · unfold mU at hs
      cases e : m.pickFilter with
      | false => rw [e] at hs; simp at hs
      | true =>
        rw [e] at hs
        simp only [if_true, List.mem_singleton] at hs
        subst hs; decide
  have hl := unlines_inj (all m hw) (all m' hw') h
  clear h all hw hw'
  have asc : ∀ (a b c d e f g i : List Reports.Str), a ++ b ++ c ++ d ++ e ++ f ++ g ++ i =
      a ++ (b ++ (c ++ (d ++ (e ++ (f ++ (g ++ i)))))) := by
    intro a b c d e f g i
    simp only [List.append_assoc]
  rw [asc, asc] at hl
  obtain ⟨h1, hl⟩ := List.append_inj hl rfl
  have oC : ∀ m : MagSettings N, mC sh shl m = [] ∨ ∃ s, mC sh shl m = [s] ∧ s.take 3 = "\t\tU".toList := by
    intro m
    unfold mC
    by_cases e : m.corrections ≠ []
    · rw [if_pos e]; exact Or.inr ⟨_, rfl, by decide⟩
    · rw [if_neg e]; exact Or.inl rfl
  have oT : ∀ m : MagSettings N, mT sh shl m = [] ∨ ∃ s, mT sh shl m = [s] ∧ s.take 3 = "\t\tT".toList := by
    intro m
    unfold mT
    cases m.traceFilter with
    | none => exact Or.inl rfl
    | some f => exact Or.inr ⟨_, rfl, by rw [take_lit (by decide)]; decide⟩
  have oS : ∀ m : MagSettings N, mS sh shl m = [] ∨ ∃ s, mS sh shl m = [s] ∧ s.take 3 = "\t\tS".toList := by
    intro m
    unfold mS
    cases m.stationFilter with
    | none => exact Or.inl rfl
    | some f => exact Or.inr ⟨_, rfl, by rw [take_lit (by decide)]; decide⟩
  have oD : ∀ m : MagSettings N, mD sh shl m = [] ∨ ∃ s, mD sh shl m = [s] ∧ s.take 3 = "\t\tD".toList := by
    intro m
    unfold mD
    cases m.distFilter with
    | none => exact Or.inl rfl
    | some f => exact Or.inr ⟨_, rfl, by rw [List.append_assoc, take_lit (by decide)]; decide⟩
  have oU : ∀ m : MagSettings N, mU sh shl m = [] ∨ ∃ s, mU sh shl m = [s] ∧ s.take 3 = "\t\tU".toList := by
    intro m
    unfold mU
    cases m.pickFilter with
    | false => exact Or.inl rfl
    | true => exact Or.inr ⟨_, rfl, by decide⟩
  have r2 : ∀ (m : MagSettings N) l s t, mB2 sh shl m ++ l = s :: t → s.take 3 ≠ "\t\tU".toList := by
    intro m l s t e
    simp only [mB2, List.cons_append, List.cons.injEq] at e
    rw [← e.1, take_lit (by decide)]; decide
  have r3 : ∀ (m : MagSettings N) l s t, mB3 sh shl m ++ l = s :: t → s.take 3 ≠ "\t\tT".toList := by
    intro m l s t e
    simp only [mB3, List.cons_append, List.cons.injEq] at e
    rw [← e.1, List.append_assoc, take_lit (by decide)]; decide
  have rU : ∀ (m : MagSettings N) s t, mU sh shl m = s :: t → s.take 3 = "\t\tU".toList := by
    intro m s t e
    rcases oU m with h | ⟨x, h, hx⟩ <;> rw [h] at e
    · simp at e
    · simp only [List.cons.injEq] at e
      rw [← e.1]; exact hx
  have rD : ∀ (m : MagSettings N) s t, mD sh shl m ++ mU sh shl m = s :: t → s.take 3 ≠ "\t\tS".toList := by
    intro m s t e
    rcases oD m with h | ⟨x, h, hx⟩ <;> rw [h] at e
    · rw [rU m s t e]; decide
    · simp only [List.cons_append, List.cons.injEq] at e
      rw [← e.1, hx]; decide
  obtain ⟨hC, hl⟩ := opt_split _ hl (oC m) (oC m') (r2 m _) (r2 m' _)
  obtain ⟨h2, hl⟩ := List.append_inj hl rfl
  obtain ⟨hT, hl⟩ := opt_split _ hl (oT m) (oT m') (r3 m _) (r3 m' _)
  obtain ⟨h3, hl⟩ := List.append_inj hl rfl
  obtain ⟨hS, hl⟩ := opt_split _ hl (oS m) (oS m') (rD m) (rD m')
  obtain ⟨hD, hU⟩ := opt_split _ hl (oD m) (oD m') (fun s t e => by rw [rU m s t e]; decide)
    (fun s t e => by rw [rU m' s t e]; decide)
  simp only [mB1, mB2, mB3, List.cons.injEq, and_true, true_and] at h1 h2 h3
  refine ⟨List.append_cancel_left h1.1, shBool_inj (List.append_cancel_left h1.2.1), List.append_cancel_left h1.2.2, ?_,
    P.inj _ _ (List.append_cancel_left h2.1), shBool_inj (List.append_cancel_left h2.2), ?_, P.inj _ _ (mid h3), ?_, ?_,
    ?_⟩
  · unfold mC at hC
    by_cases e : m.corrections = [] <;> by_cases e' : m'.corrections = [] <;> simp [e, e'] at hC ⊢
  · unfold mT at hT
    cases e : m.traceFilter <;> cases e' : m'.traceFilter <;> rw [e, e'] at hT
    · simp at hT
    · simp at hT
    · simp only [List.cons.injEq, and_true] at hT
      rw [List.append_cancel_left hT]
  · unfold mS at hS
    cases e : m.stationFilter <;> cases e' : m'.stationFilter <;> rw [e, e'] at hS
    · simp at hS
    · simp at hS
    · simp only [List.cons.injEq, and_true] at hS
      rw [hinj _ _ (List.append_cancel_left hS)]
  · unfold mD at hD
    cases e : m.distFilter <;> cases e' : m'.distFilter <;> rw [e, e'] at hD
    · simp at hD
    · simp at hD
    · simp only [List.cons.injEq, and_true] at hD
      rw [Option.map_some, Option.map_some, P.inj _ _ (mid hD)]
  · unfold mU at hU
    cases e : m.pickFilter <;> cases e' : m'.pickFilter <;> rw [e, e'] at hU <;> simp at hU ⊢

/-- C158 is violated for the magnitudes: whatever the settings, if station corrections are given then another value of
one of them gives the same report and other magnitudes, by exactly the difference, for all observations of that trace
that have a magnitude. -/
theorem C158_violated_corrections {N : Type} (val : N → ℝ) (sh : N → Reports.Str)
    (shl : List Reports.Str → Reports.Str) (curve : Reports.Str → ℝ → ℝ) (hit : Reports.Str → Reports.Str → Bool)
    (view : Bool) (m : MagSettings N) (id : Reports.Str) (x y : N) (rest : List (Reports.Str × N))
    (hm : m.corrections = (id, x) :: rest) :
    magReport sh shl { m with corrections := (id, y) :: rest } = magReport sh shl m ∧
    ∀ (t : List Magnitude.Obs) (o : Magnitude.Obs) (v : ℝ), o.id = id →
      Magnitude.ml (magCfg val curve hit view m) t o = some v →
      Magnitude.ml (magCfg val curve hit view { m with corrections := (id, y) :: rest }) t o =
        some (v + (val y - val x)) := by
  constructor
  · unfold magReport
    simp only [hm, ne_eq, reduceCtorEq, not_false_eq_true, if_true]
  · intro t o v ho hv
    unfold Magnitude.ml at hv ⊢
    have e1 : Magnitude.signalAmp (magCfg val curve hit view { m with corrections := (id, y) :: rest }) t o =
        Magnitude.signalAmp (magCfg val curve hit view m) t o := rfl
    have e2 : Magnitude.atten (magCfg val curve hit view { m with corrections := (id, y) :: rest }) o =
        Magnitude.atten (magCfg val curve hit view m) o := rfl
    have e3 : Magnitude.correction (magCfg val curve hit view { m with corrections := (id, y) :: rest }) o.id =
        val y := by
      simp [Magnitude.correction, magCfg, ho]
    have e4 : Magnitude.correction (magCfg val curve hit view m) o.id = val x := by
      simp [Magnitude.correction, magCfg, ho, hm]
    rw [e1, e2, e3]
    rw [e4] at hv
    cases h1 : (Magnitude.signalAmp (magCfg val curve hit view m) t o).bind Magnitude.log10 <;>
      cases h2 : Magnitude.atten (magCfg val curve hit view m) o <;> rw [h1, h2] at hv <;>
      simp only [reduceCtorEq, Option.some.injEq] at hv ⊢
    linarith

/-- Settings with a correction, and an observation with a magnitude. -/
example : ∃ (m : MagSettings ℝ) (o : Magnitude.Obs) (v : ℝ),
    m.corrections = [("A".toList, 1)] ∧ o.id = "A".toList ∧
    Magnitude.ml (magCfg id (fun _ d => d) (fun _ _ => true) false m) [o] o = some v := by
  refine ⟨⟨"hb".toList, false, "S_amp".toList, [("A".toList, 1)], 1, false, none, 0, none, none, false, false⟩,
    ⟨"A".toList, some 10, 0, some 100, none, none, true⟩, Real.logb 10 100 + 10 + 1, rfl, rfl, ?_⟩
  simp [Magnitude.ml, Magnitude.signalAmp, Magnitude.noiseGain, Magnitude.log10, Magnitude.atten, Magnitude.rawDist,
    Magnitude.nonZero, Magnitude.correction, magCfg]

private theorem picker_form  : ∀ args s, PickerSettings.construct args = .ok s →
    (∃ p, s = ⟨"percentile".toList, some p, none, args.fraction⟩) ∨
    ∃ k, s = ⟨"MAD".toList, none, some k, args.fraction⟩ := by
  intro args s h
  unfold PickerSettings.construct PickerSettings.readMethod at h
  by_cases h1 : args.method.getD "MAD".toList = "percentile".toList
  · rw [if_pos h1] at h
    left
    refine ⟨args.percentile.getD 1, ?_⟩
    cases hp : args.pickThreshold with
    | none => rw [hp] at h; simp only [Except.ok.injEq] at h; exact h.symm
    | some w =>
      rw [hp] at h
      by_cases hw : w = 0
      · simp only [hw, if_true, Except.ok.injEq] at h; exact h.symm
      · simp only [hw, if_false, reduceCtorEq] at h
  · rw [if_neg h1] at h
    by_cases h2 : args.method.getD "MAD".toList = "MAD".toList
    · rw [if_pos h2] at h
      right
      refine ⟨args.mad.getD 8, ?_⟩
      cases hp : args.pickThreshold with
      | none => rw [hp] at h; simp only [Except.ok.injEq] at h; exact h.symm
      | some w =>
        rw [hp] at h
        by_cases hw : w = 0
        · simp only [hw, if_true, Except.ok.injEq] at h; exact h.symm
        · simp only [hw, if_false, reduceCtorEq] at h
    · rw [if_neg h2] at h
      simp only [reduceCtorEq] at h

private theorem picker_genP (sh : ℚ → Reports.Str) (s : PickerSettings.Settings) (h : s.method = "percentile".toList) :
    pickerReport sh s =
    unlines (["\tPhase picking by fitting a 1-D Gaussian to onsets".toList] ++
      ["\t\tPercentile threshold  = ".toList ++ sh (s.percentile.getD 0)] ++ (match s.fraction with
     | some f => ["\t\tSearch window   = ".toList ++ sh (f * 100) ++ "% of traveltime".toList]
     | none => [])) := by
  unfold pickerReport
  rw [if_pos h]
  cases s.fraction <;> rfl

private theorem picker_genM (sh : ℚ → Reports.Str) (s : PickerSettings.Settings) (h1 : ¬ s.method = "percentile".toList)
    (h : s.method = "MAD".toList) : pickerReport sh s =
    unlines (["\tPhase picking by fitting a 1-D Gaussian to onsets".toList] ++
      ["\t\tMAD multiplier  = ".toList ++ sh (s.mad.getD 0)] ++ (match s.fraction with
     | some f => ["\t\tSearch window   = ".toList ++ sh (f * 100) ++ "% of traveltime".toList]
     | none => [])) := by
  unfold pickerReport
  rw [if_neg h1, if_pos h]
  cases s.fraction <;> rfl

private theorem picker_repP (sh : ℚ → Reports.Str) (p : ℚ) (f : Option ℚ) :
    pickerReport sh ⟨"percentile".toList, some p, none, f⟩ =
    unlines (["\tPhase picking by fitting a 1-D Gaussian to onsets".toList] ++
      ["\t\tPercentile threshold  = ".toList ++ sh p] ++ (match f with
     | some f => ["\t\tSearch window   = ".toList ++ sh (f * 100) ++ "% of traveltime".toList]
     | none => [])) := by
  rw [picker_genP sh _ rfl]
  cases f <;> rfl

private theorem picker_repM (sh : ℚ → Reports.Str) (p : ℚ) (f : Option ℚ) :
    pickerReport sh ⟨"MAD".toList, none, some p, f⟩ =
    unlines (["\tPhase picking by fitting a 1-D Gaussian to onsets".toList] ++
      ["\t\tMAD multiplier  = ".toList ++ sh p] ++ (match f with
     | some f => ["\t\tSearch window   = ".toList ++ sh (f * 100) ++ "% of traveltime".toList]
     | none => [])) := by
  have c : ¬ ("MAD".toList = "percentile".toList) := by decide
  rw [picker_genM sh _ c rfl]
  cases f <;> rfl

/-- C158, the picks: for pickers as the constructor makes them, the report determines the picks, whatever the event. -/
theorem C158_picker_report (sh : ℚ → Reports.Str) (P : Spec.Prints id sh) (args args' : PickerSettings.Args)
    (s s' : PickerSettings.Settings) (hs : PickerSettings.construct args = .ok s)
    (hs' : PickerSettings.construct args' = .ok s') (h : pickerReport sh s = pickerReport sh s')
    (pct : ℚ → List ℚ → Option ℚ) (v : PickerSettings.Env)
    (onsets : List (PickerSettings.Str × List (PickerSettings.Str × List ℚ))) :
    PickerSettings.pickPhases pct s v onsets = PickerSettings.pickPhases pct s' v onsets := by
  suffices e : s = s' by rw [e]
  have one : ∀ (m : Reports.Str) (f : Option ℚ), '\n' ∉ m → ∀ s ∈
      (["\tPhase picking by fitting a 1-D Gaussian to onsets".toList] ++ [m] ++ (match f with
       | some f => ["\t\tSearch window   = ".toList ++ sh (f * 100) ++ "% of traveltime".toList]
       | none => [])), '\n' ∉ s := by
    intro m f hm s hs
    simp only [List.mem_append, List.mem_singleton] at hs
    rcases hs with (rfl | rfl) | hs
    · decide
    · exact hm
    · cases f with
      | none => simp at hs
      | some f =>
        simp only [List.mem_singleton] at hs
        subst hs
        simp only [List.mem_append, not_or]
        exact ⟨⟨by decide, P.line _⟩, by decide⟩
  have two : ∀ (m m' : Reports.Str) (f f' : Option ℚ), '\n' ∉ m → '\n' ∉ m' →
      unlines (["\tPhase picking by fitting a 1-D Gaussian to onsets".toList] ++ [m] ++ (match f with
       | some f => ["\t\tSearch window   = ".toList ++ sh (f * 100) ++ "% of traveltime".toList]
       | none => [])) =
      unlines (["\tPhase picking by fitting a 1-D Gaussian to onsets".toList] ++ [m'] ++ (match f' with
       | some f => ["\t\tSearch window   = ".toList ++ sh (f * 100) ++ "% of traveltime".toList]
       | none => [])) → m = m' ∧ f = f' := by
    intro m m' f f' hm hm' e
    have e1 := unlines_inj (one m f hm) (one m' f' hm') e
    simp only [List.cons_append, List.nil_append, List.cons.injEq, true_and] at e1
    refine ⟨e1.1, ?_⟩
    have e2 := e1.2
    cases f <;> cases f'
    · rfl
    · simp at e2
    · simp at e2
    · simp only [List.cons.injEq, and_true] at e2
      have e3 := P.inj _ _ (mid e2)
      simp only [id_eq] at e3
      rw [mul_right_cancel₀ (by norm_num) e3]
  have nl : ∀ (p : Reports.Str) x, '\n' ∉ p → '\n' ∉ p ++ sh x := by
    intro p x hp
    simp only [List.mem_append, not_or]
    exact ⟨hp, P.line x⟩
  have diff : ∀ x y : Reports.Str, "\t\tPercentile threshold  = ".toList ++ x ≠ "\t\tMAD multiplier  = ".toList ++ y := by
    intro x y e
    have e1 := congrArg (List.take 3) e
    rw [take_lit (by decide), take_lit (by decide)] at e1
    exact absurd e1 (by decide)
  rcases picker_form args s hs with ⟨p, rfl⟩ | ⟨k, rfl⟩ <;> rcases picker_form args' s' hs' with ⟨p', rfl⟩ | ⟨k', rfl⟩
  · rw [picker_repP, picker_repP] at h
    obtain ⟨a, b⟩ := two _ _ _ _ (nl _ _ (by decide)) (nl _ _ (by decide)) h
    have := P.inj _ _ (List.append_cancel_left a)
    simp only [id_eq] at this
    rw [this, b]
  · rw [picker_repP, picker_repM] at h
    exact absurd (two _ _ _ _ (nl _ _ (by decide)) (nl _ _ (by decide)) h).1 (diff _ _)
  · rw [picker_repP, picker_repM] at h
    exact absurd (two _ _ _ _ (nl _ _ (by decide)) (nl _ _ (by decide)) h).1.symm (diff _ _)
  · rw [picker_repM, picker_repM] at h
    obtain ⟨a, b⟩ := two _ _ _ _ (nl _ _ (by decide)) (nl _ _ (by decide)) h
    have := P.inj _ _ (List.append_cancel_left a)
    simp only [id_eq] at this
    rw [this, b]

/-- Two pickers with the same report: an unused percentile was given to one of them. -/
example : PickerSettings.construct {} = .ok ⟨"MAD".toList, none, some 8, none⟩ ∧
    PickerSettings.construct { percentile := some (1 / 2), mad := some 8 } =
      .ok ⟨"MAD".toList, none, some 8, none⟩ ∧
    PickerSettings.construct { method := some "percentile".toList, fraction := some (1 / 10) } =
      .ok ⟨"percentile".toList, some 1, none, some (1 / 10)⟩ := by
  refine ⟨by decide +kernel, by decide +kernel, by decide +kernel⟩

end QM
