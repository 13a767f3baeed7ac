import Verif.Model.OnsetReport
import Verif.Props.Reports
import Verif.Props.OnsetGain

/-!
# C191: the report of the onset settings
-/

namespace QM
open QM.OnsetReport QM.CalcOnsets
open QM.Reports (unlines)
open QM.Compute (Str)

/-! ## Specification -/

/-- Names of phases that print without ambiguity. -/
def Spec.PlainPhases (l : List Str) : Prop := ∀ p ∈ l, ' ' ∉ p ∧ '\n' ∉ p

/-- The report of `s` can be read: numbers print as such, and the names of phases are plain. -/
structure Spec.Readable {N H : Type} (val : N → ℚ) (sh : N → Str) (s : Settings N H) : Prop where
  prints : Spec.Prints val sh
  phases : Spec.PlainPhases s.phases
  filters : Spec.PlainPhases (s.filters.map Prod.fst)
  windows : Spec.PlainPhases (s.windows.map Prod.fst)

/-! ## Proof -/

private theorem cut {a a' b b' : Str} (c : Char) (ha : c ∉ a) (ha' : c ∉ a')
    (h : a ++ c :: b = a' ++ c :: b') : a = a' ∧ b = b' := by
  induction a generalizing a' with
  | nil =>
    cases a' with
    | nil => simpa using h
    | cons x a' =>
      simp only [List.nil_append, List.cons_append, List.cons.injEq] at h
      exact absurd (h.1 ▸ List.mem_cons_self) ha'
  | cons x a ih =>
    cases a' with
    | nil =>
      simp only [List.nil_append, List.cons_append, List.cons.injEq] at h
      exact absurd (h.1 ▸ List.mem_cons_self) ha
    | cons y a' =>
      simp only [List.cons_append, List.cons.injEq] at h
      simp only [List.mem_cons, not_or] at ha ha'
      obtain ⟨h1, h2⟩ := ih ha.2 ha'.2 h.2
      exact ⟨by rw [h.1, h1], h2⟩

private theorem tail_inj {a a' : Str} {l l' : List Str} (ha : ' ' ∉ a) (ha' : ' ' ∉ a') (hl : ∀ s ∈ l, ' ' ∉ s)
    (hl' : ∀ s ∈ l', ' ' ∉ s) (h : a ++ listTail l = a' ++ listTail l') : a = a' ∧ l = l' := by
  induction l generalizing a a' l' with
  | nil =>
    cases l' with
    | nil => exact ⟨List.append_cancel_right h, rfl⟩
    | cons b l' =>
      exfalso
      have : ' ' ∈ a ++ listTail [] := by rw [h]; simp [listTail]
      simp [listTail, ha] at this
  | cons b l ih =>
    cases l' with
    | nil =>
      exfalso
      have : ' ' ∈ a' ++ listTail [] := by rw [← h]; simp [listTail]
      simp [listTail, ha'] at this
    | cons b' l' =>
      have h1 : (a ++ [',']) ++ ' ' :: (b ++ listTail l) = (a' ++ [',']) ++ ' ' :: (b' ++ listTail l') := by
        simpa [listTail] using h
      obtain ⟨e1, e2⟩ := cut ' ' (by simp [ha]) (by simp [ha']) h1
      obtain ⟨e3, e4⟩ := ih (hl b List.mem_cons_self) (hl' b' List.mem_cons_self)
        (fun s hs => hl s (List.mem_cons_of_mem _ hs)) (fun s hs => hl' s (List.mem_cons_of_mem _ hs)) e2
      exact ⟨List.append_cancel_right e1, by rw [e3, e4]⟩

private theorem tail_ne (l : List Str) : listTail l ≠ [] := by cases l <;> simp [listTail]

private theorem listText_inj {l l' : List Str} (hl : ∀ s ∈ l, ' ' ∉ s ∧ s ≠ [])
    (hl' : ∀ s ∈ l', ' ' ∉ s ∧ s ≠ []) (h : listText l = listText l') : l = l' := by
  have one : ∀ (a : Str) (r : List Str), a ≠ [] → listText [] ≠ listText (a :: r) := by
    intro a r ha e
    simp only [listText, List.cons.injEq, true_and] at e
    have := congrArg List.length e
    have h1 := List.length_pos_of_ne_nil ha
    have h2 := List.length_pos_of_ne_nil (tail_ne r)
    simp at this
    omega
  cases l with
  | nil =>
    cases l' with
    | nil => rfl
    | cons a r => exact absurd h (one a r (hl' a List.mem_cons_self).2)
  | cons a r =>
    cases l' with
    | nil => exact absurd h.symm (one a r (hl a List.mem_cons_self).2)
    | cons a' r' =>
      simp only [listText, List.cons.injEq, true_and] at h
      obtain ⟨e1, e2⟩ := tail_inj (hl a List.mem_cons_self).1 (hl' a' List.mem_cons_self).1
        (fun s hs => (hl s (List.mem_cons_of_mem _ hs)).1) (fun s hs => (hl' s (List.mem_cons_of_mem _ hs)).1) h
      rw [e1, e2]

private theorem tail_line {l : List Str} (h : ∀ s ∈ l, '\n' ∉ s) : '\n' ∉ listTail l := by
  induction l with
  | nil => simp [listTail]
  | cons a l ih =>
    simp only [listTail, List.mem_cons, List.mem_append, not_or]
    exact ⟨by decide, by decide, h a List.mem_cons_self, ih fun s hs => h s (List.mem_cons_of_mem _ hs)⟩

private theorem listText_line {l : List Str} (h : ∀ s ∈ l, '\n' ∉ s) : '\n' ∉ listText l := by
  cases l with
  | nil => decide
  | cons a l =>
    simp only [listText, List.mem_cons, List.mem_append, not_or]
    exact ⟨by decide, h a List.mem_cons_self, tail_line fun s hs => h s (List.mem_cons_of_mem _ hs)⟩

private theorem filterLine_inj {N : Type} {val : N → ℚ} {sh : N → Str} (P : Spec.Prints val sh) {e e' : Str × N × N × N}
    (h1 : ' ' ∉ e.1) (h2 : ' ' ∉ e'.1) (h : filterLine sh e = filterLine sh e') :
    e.1 = e'.1 ∧ val e.2.1 = val e'.2.1 ∧ val e.2.2.1 = val e'.2.2.1 ∧ val e.2.2.2 = val e'.2.2.2 := by
  have h := List.append_cancel_left h
  obtain ⟨a, b⟩ := cut ' ' (b := "bandpass filter  = ".toList ++ _) (b' := "bandpass filter  = ".toList ++ _) h1 h2 h
  have b := List.append_cancel_right (List.append_cancel_left b)
  simp only [listText, listTail, List.cons.injEq, true_and] at b
  obtain ⟨b1, b2⟩ := tail_inj (l := [_, _]) (l' := [_, _]) (P.word _) (P.word _) (by simp [P.word]) (by simp [P.word]) b
  simp only [List.cons.injEq, and_true] at b2
  exact ⟨a, P.inj _ _ b1, P.inj _ _ b2.1, P.inj _ _ b2.2⟩

private theorem windowLine_inj {N : Type} {val : N → ℚ} {sh : N → Str} (P : Spec.Prints val sh) {e e' : Str × N × N}
    (h1 : ' ' ∉ e.1) (h2 : ' ' ∉ e'.1) (h : windowLine sh e = windowLine sh e') :
    e.1 = e'.1 ∧ val e.2.1 = val e'.2.1 ∧ val e.2.2 = val e'.2.2 := by
  have h := List.append_cancel_left h
  obtain ⟨a, b⟩ := cut ' ' (b := "onset [STA, LTA] = ".toList ++ _) (b' := "onset [STA, LTA] = ".toList ++ _) h1 h2 h
  have b := List.append_cancel_right (List.append_cancel_left b)
  simp only [listText, listTail, List.cons.injEq, true_and] at b
  obtain ⟨b1, b2⟩ := tail_inj (l := [_]) (l' := [_]) (P.word _) (P.word _) (by simp [P.word]) (by simp [P.word]) b
  simp only [List.cons.injEq, and_true] at b2
  exact ⟨a, P.inj _ _ b1, P.inj _ _ b2⟩

private theorem filterLine_line {N : Type} {val : N → ℚ} {sh : N → Str} (P : Spec.Prints val sh) (e : Str × N × N × N)
    (h : '\n' ∉ e.1) : '\n' ∉ filterLine sh e := by
  unfold filterLine
  simp only [List.mem_append, not_or]
  exact ⟨by decide, h, by decide, listText_line (by simp [P.line]), by decide⟩

private theorem windowLine_line {N : Type} {val : N → ℚ} {sh : N → Str} (P : Spec.Prints val sh) (e : Str × N × N)
    (h : '\n' ∉ e.1) : '\n' ∉ windowLine sh e := by
  unfold windowLine
  simp only [List.mem_append, not_or]
  exact ⟨by decide, h, by decide, listText_line (by simp [P.line]), by decide⟩

private theorem report_lines {N H : Type} {val : N → ℚ} {sh : N → Str} {s : Settings N H} (R : Spec.Readable val sh s) :
    ∀ l ∈ ["\tOnset parameters - using the ".toList ++ (positionText s.position ++ " STA/LTA onset".toList),
      "\t\tOnset function sampling rate = ".toList ++ (sh s.rate ++ " Hz".toList),
      "\t\tPhase(s) = ".toList ++ listText (s.phases.map quoted), []] ++ s.filters.map (filterLine sh) ++ [[]] ++
    s.windows.map (windowLine sh), '\n' ∉ l := by
  intro l hl
  simp only [List.mem_append, List.mem_cons, List.not_mem_nil, or_false, List.mem_map] at hl
  rcases hl with (((rfl | rfl | rfl | rfl) | ⟨e, he, rfl⟩) | rfl) | ⟨e, he, rfl⟩
  · cases s.position <;> decide
  · simp only [List.mem_append, not_or]
    exact ⟨by decide, R.prints.line _, by decide⟩
  · simp only [List.mem_append, not_or]
    refine ⟨by decide, listText_line ?_⟩
    intro q hq
    obtain ⟨p, hp, rfl⟩ := List.mem_map.1 hq
    simp only [quoted, List.mem_cons, List.mem_append, not_or]
    exact ⟨by decide, (R.phases p hp).2, by decide, by decide⟩
  · decide
  · exact filterLine_line R.prints e (R.filters _ (List.mem_map_of_mem he)).2
  · decide
  · exact windowLine_line R.prints e (R.windows _ (List.mem_map_of_mem he)).2

private theorem split_blank {a a' b b' : List Str} (ha : ∀ s ∈ a, s ≠ []) (ha' : ∀ s ∈ a', s ≠ [])
    (h : a ++ [[]] ++ b = a' ++ [[]] ++ b') : a = a' ∧ b = b' := by
  induction a generalizing a' with
  | nil =>
    cases a' with
    | nil => simpa using h
    | cons x a' =>
      simp only [List.nil_append, List.cons_append, List.cons.injEq] at h
      exact absurd h.1.symm (ha' x List.mem_cons_self)
  | cons x a ih =>
    cases a' with
    | nil =>
      simp only [List.nil_append, List.cons_append, List.cons.injEq] at h
      exact absurd h.1 (ha x List.mem_cons_self)
    | cons y a' =>
      simp only [List.cons_append, List.cons.injEq] at h
      obtain ⟨h1, h2⟩ := ih (fun s hs => ha s (List.mem_cons_of_mem _ hs)) (fun s hs => ha' s (List.mem_cons_of_mem _ hs)) h.2
      exact ⟨by rw [h.1, h1], h2⟩

private theorem map_lines {α β : Type} {f : α → Str} {g : α → β} (P : α → Prop)
    (hf : ∀ x y, P x → P y → f x = f y → g x = g y) {l l' : List α} (hl : ∀ x ∈ l, P x) (hl' : ∀ x ∈ l', P x)
    (h : l.map f = l'.map f) : l.map g = l'.map g := by
  induction l generalizing l' with
  | nil => cases l' with
    | nil => rfl
    | cons a r => simp at h
  | cons a r ih => cases l' with
    | nil => simp at h
    | cons a' r' =>
      simp only [List.map_cons, List.cons.injEq] at h ⊢
      exact ⟨hf _ _ (hl a List.mem_cons_self) (hl' a' List.mem_cons_self) h.1,
        ih (fun x hx => hl x (List.mem_cons_of_mem _ hx)) (fun x hx => hl' x (List.mem_cons_of_mem _ hx)) h.2⟩

/-- The settings that are shown, with the values of the numbers. -/
def Spec.shown {N H : Type} (val : N → ℚ) (s : Settings N H) :
    StaLta.Position × ℚ × List Str × List (Str × ℚ × ℚ × ℚ) × List (Str × ℚ × ℚ) :=
  (s.position, val s.rate, s.phases, s.filters.map fun e => (e.1, val e.2.1, val e.2.2.1, val e.2.2.2),
    s.windows.map fun e => (e.1, val e.2.1, val e.2.2))

/-- C191: what can be read from the report: two onset objects with the same report have the same position, sampling rate,
phases, filters and windows. -/
theorem C191_report_determines {N H : Type} (val : N → ℚ) (sh : N → Str) (s s' : Settings N H)
    (R : Spec.Readable val sh s) (R' : Spec.Readable val sh s') (h : onsetReport sh s = onsetReport sh s') :
    Spec.shown val s = Spec.shown val s' := by
  have P := R.prints
  have hL := unlines_inj (report_lines R) (report_lines R') h
  simp only [List.cons_append, List.nil_append, List.cons.injEq, true_and] at hL
  obtain ⟨h1, h2, h3, h4⟩ := hL
  have fne : ∀ (l : List (Str × N × N × N)), ∀ q ∈ l.map (filterLine sh), q ≠ [] := by
    intro l q hq
    obtain ⟨e, -, rfl⟩ := List.mem_map.1 hq
    simp [filterLine]
  obtain ⟨h5, h6⟩ := split_blank (fne _) (fne _) h4
  have h1 := List.append_cancel_right (List.append_cancel_left h1)
  have e1 : s.position = s'.position := by
    revert h1
    cases s.position <;> cases s'.position <;> simp [positionText]
  have e2 := P.inj _ _ (List.append_cancel_right (List.append_cancel_left h2))
  have q : ∀ t : Settings N H, Spec.Readable val sh t → ∀ q ∈ t.phases.map quoted, ' ' ∉ q ∧ q ≠ [] := by
    intro t Rt q hq
    obtain ⟨p, hp, rfl⟩ := List.mem_map.1 hq
    refine ⟨?_, by simp [quoted]⟩
    simp only [quoted, List.mem_cons, List.mem_append, not_or]
    exact ⟨by decide, (Rt.phases p hp).1, by decide, by decide⟩
  have e3 : s.phases = s'.phases := by
    have := listText_inj (q s R) (q s' R') (List.append_cancel_left h3)
    refine List.map_injective_iff.2 ?_ this
    intro a b hab
    simp only [quoted, List.cons.injEq, true_and] at hab
    exact List.append_cancel_right hab
  have e4 : s.filters.map (fun e => (e.1, val e.2.1, val e.2.2.1, val e.2.2.2)) =
      s'.filters.map (fun e => (e.1, val e.2.1, val e.2.2.1, val e.2.2.2)) := by
    refine map_lines (fun e => ' ' ∉ e.1) ?_ (fun e he => (R.filters _ (List.mem_map_of_mem he)).1)
      (fun e he => (R'.filters _ (List.mem_map_of_mem he)).1) h5
    intro x y hx hy hxy
    obtain ⟨a, b, c, d⟩ := filterLine_inj P hx hy hxy
    simp [a, b, c, d]
  have e5 : s.windows.map (fun e => (e.1, val e.2.1, val e.2.2)) = s'.windows.map (fun e => (e.1, val e.2.1, val e.2.2)) := by
    refine map_lines (fun e => ' ' ∉ e.1) ?_ (fun e he => (R.windows _ (List.mem_map_of_mem he)).1)
      (fun e he => (R'.windows _ (List.mem_map_of_mem he)).1) h6
    intro x y hx hy hxy
    obtain ⟨a, b, c⟩ := windowLine_inj P hx hy hxy
    simp [a, b, c]
  simp only [Spec.shown, e1, e2, e3, e4, e5]

private theorem entry_map {α β : Type} (f : α → β) (l : List (Str × α)) (p : Str) :
    (entry l p).map f = entry (l.map fun e => (e.1, f e.2)) p := by
  induction l with
  | nil => rfl
  | cons a l ih =>
    unfold entry at ih ⊢
    by_cases h : a.1 = p
    · simp [h]
    · simpa [h] using ih

/-- C191 (partial): two onset objects with the same report, and with the same channel maps, channel counts, data checks,
signal transform and minimum value, calculate the same onset functions from the same data, or end with the same
exception.  Missing: the settings that are not in the report have to be the same, see `C191_violated`.  `x` are the
routines of ObsPy, which are told the number of corners. -/
theorem C191_report_determines_onsets_partial {N : Type} (val : N → ℚ) (sh : N → Str) (s s' : Settings N Hidden)
    (R : Spec.Readable val sh s) (R' : Spec.Readable val sh s') (h : onsetReport sh s = onsetReport sh s')
    (hh : s.hidden = s'.hidden) (x : (Str → ℚ) → Ext) (d : CalcOnsets.Data) :
    calculateOnsets (cfg val s) (x (corners val s)) d = calculateOnsets (cfg val s') (x (corners val s')) d := by
  have H := C191_report_determines val sh s s' R R' h
  simp only [Spec.shown, Prod.mk.injEq] at H
  obtain ⟨h1, h2, h3, h4, h5⟩ := H
  have f : ∀ (g : ℚ × ℚ × ℚ → ℚ) p, (entry s.filters p).map (fun e => g (val e.1, val e.2.1, val e.2.2)) =
      (entry s'.filters p).map (fun e => g (val e.1, val e.2.1, val e.2.2)) := by
    intro g p
    have := congrArg (fun l => (entry l p).map g) h4
    have k : ∀ l : List (Str × N × N × N), (entry l p).map (fun e => g (val e.1, val e.2.1, val e.2.2)) =
        (entry (l.map fun e => (e.1, val e.2.1, val e.2.2.1, val e.2.2.2)) p).map g := by
      intro l
      rw [← entry_map (fun e : N × N × N => (val e.1, val e.2.1, val e.2.2)) l p, Option.map_map]
      rfl
    rw [k, k]
    exact this
  have w : ∀ (g : ℚ × ℚ → ℚ) p, (entry s.windows p).map (fun e => g (val e.1, val e.2)) =
      (entry s'.windows p).map (fun e => g (val e.1, val e.2)) := by
    intro g p
    have := congrArg (fun l => (entry l p).map g) h5
    have k : ∀ l : List (Str × N × N), (entry l p).map (fun e => g (val e.1, val e.2)) =
        (entry (l.map fun e => (e.1, val e.2.1, val e.2.2)) p).map g := by
      intro l
      rw [← entry_map (fun e : N × N => (val e.1, val e.2)) l p, Option.map_map]
      rfl
    rw [k, k]
    exact this
  have hc : cfg val s = cfg val s' := by
    unfold cfg
    rw [h1, h2, h3, hh]
    congr 1
    · funext p; rw [w Prod.fst p]
    · funext p; rw [w Prod.snd p]
    · funext p; rw [f Prod.fst p]
    · funext p; rw [f (fun e => e.2.1) p]
  have hk : corners val s = corners val s' := by
    funext p
    unfold corners
    rw [f (fun e => e.2.2) p]
  rw [hc, hk]

/-- C191: the report has a line with each of the settings it shows. -/
theorem C191_states_settings {N H : Type} (val : N → ℚ) (sh : N → Str) (s : Settings N H) (R : Spec.Readable val sh s) :
    Spec.HasLine (onsetReport sh s) ("\tOnset parameters - using the ".toList ++
      ((match s.position with | .classic => "classic".toList | .centred => "centred".toList) ++ " STA/LTA onset".toList)) ∧
    Spec.HasLine (onsetReport sh s) ("\t\tOnset function sampling rate = ".toList ++ (sh s.rate ++ " Hz".toList)) ∧
    (∀ p q, s.phases = [p, q] → Spec.HasLine (onsetReport sh s)
      ("\t\tPhase(s) = ['".toList ++ p ++ "', '".toList ++ q ++ "']".toList)) ∧
    (∀ p a b c, (p, a, b, c) ∈ s.filters → Spec.HasLine (onsetReport sh s) ("\t\t".toList ++ p ++
      " bandpass filter  = [".toList ++ sh a ++ ", ".toList ++ sh b ++ ", ".toList ++ sh c ++ "] (Hz, Hz, -)".toList)) ∧
    ∀ p a b, (p, a, b) ∈ s.windows → Spec.HasLine (onsetReport sh s) ("\t\t".toList ++ p ++
      " onset [STA, LTA] = [".toList ++ sh a ++ ", ".toList ++ sh b ++ "] (s, s)".toList) := by
  have all := report_lines R
  have hm : ∀ l, l ∈ ["\tOnset parameters - using the ".toList ++ (positionText s.position ++ " STA/LTA onset".toList),
      "\t\tOnset function sampling rate = ".toList ++ (sh s.rate ++ " Hz".toList),
      "\t\tPhase(s) = ".toList ++ listText (s.phases.map quoted), []] ++ s.filters.map (filterLine sh) ++ [[]] ++
    s.windows.map (windowLine sh) → Spec.HasLine (onsetReport sh s) l := fun l hl => hasLine_of_mem hl (all l hl)
  refine ⟨?_, hm _ (by simp), ?_, ?_, ?_⟩
  · have e : (match s.position with | .classic => "classic".toList | .centred => "centred".toList) =
        positionText s.position := by cases s.position <;> rfl
    rw [e]
    exact hm _ (by simp)
  · intro p q hp
    have e : "\t\tPhase(s) = ['".toList ++ p ++ "', '".toList ++ q ++ "']".toList =
        "\t\tPhase(s) = ".toList ++ listText (s.phases.map quoted) := by
      rw [hp]; simp [listText, listTail, quoted]
    rw [e]
    exact hm _ (by simp)
  · intro p a b c hp
    have e : "\t\t".toList ++ p ++ " bandpass filter  = [".toList ++ sh a ++ ", ".toList ++ sh b ++ ", ".toList ++ sh c ++
        "] (Hz, Hz, -)".toList = filterLine sh (p, a, b, c) := by
      simp [filterLine, listText, listTail]
    rw [e]
    refine hm _ ?_
    simp only [List.mem_append, List.mem_map]
    exact Or.inl (Or.inl (Or.inr ⟨_, hp, rfl⟩))
  · intro p a b hp
    have e : "\t\t".toList ++ p ++ " onset [STA, LTA] = [".toList ++ sh a ++ ", ".toList ++ sh b ++ "] (s, s)".toList =
        windowLine sh (p, a, b) := by
      simp [windowLine, listText, listTail]
    rw [e]
    refine hm _ ?_
    simp only [List.mem_append, List.mem_map]
    exact Or.inr ⟨_, hp, rfl⟩

/-! ### The minimum value -/

private theorem onset_ge {c : Cfg} {p : Str} {rs : List (Str × List ℚ)} {f : List (Option ℝ)} (h : onset c p rs = .ok f)
    (v : ℝ) (hv : some v ∈ f) : c.minOnset ≤ v := by
  unfold onset at h
  split at h
  · cases h
  · split_ifs at h
    cases h
    obtain ⟨i, -, hi⟩ := List.mem_map.1 hv
    unfold combined at hi
    split_ifs at hi
    cases hi
    exact le_max_left _ _

private theorem station_ge {c : Cfg} {x : Ext} {d : CalcOnsets.Data} {p : Str} {st : List Data.Trace} :
    ∀ (l : List Str) (o o' : Out), stationLoop c x d p st l o = .ok o' →
      (∀ e ∈ o.onsets, ∀ v, some v ∈ e.2 → c.minOnset ≤ v) → ∀ e ∈ o'.onsets, ∀ v, some v ∈ e.2 → c.minOnset ≤ v := by
  intro l
  induction l with
  | nil =>
    intro o o' h ho
    simp only [stationLoop, Except.ok.injEq] at h
    rw [← h]; exact ho
  | cons s l ih =>
    intro o o' h ho
    unfold stationLoop at h
    split at h
    · cases h
    · exact ih _ _ h ho
    · rename_i rs f hs
      refine ih _ _ h ?_
      intro e he v hv
      rcases List.mem_append.1 he with he | he
      · exact ho e he v hv
      · rw [List.mem_singleton] at he
        subst he
        unfold stationPhase at hs
        simp only at hs
        split at hs
        · cases hs
        · cases hs
        · split at hs
          · cases hs
          · rename_i o1 h1
            simp only [Except.ok.injEq, Option.some.injEq, Prod.mk.injEq] at hs
            obtain ⟨-, rfl⟩ := hs
            exact onset_ge h1 v hv

private theorem phase_ge {c : Cfg} {x : Ext} {d : CalcOnsets.Data} :
    ∀ (l : List Str) (o o' : Out), phaseLoop c x d l o = .ok o' →
      (∀ e ∈ o.onsets, ∀ v, some v ∈ e.2 → c.minOnset ≤ v) → ∀ e ∈ o'.onsets, ∀ v, some v ∈ e.2 → c.minOnset ≤ v := by
  intro l
  induction l with
  | nil =>
    intro o o' h ho
    simp only [phaseLoop, Except.ok.injEq] at h
    rw [← h]; exact ho
  | cons s l ih =>
    intro o o' h ho
    unfold phaseLoop at h
    split at h
    · cases h
    · split at h
      · cases h
      · rename_i o1 h1
        exact ih _ _ h (station_ge _ _ _ h1 ho)

private theorem onsets_ge {c : Cfg} {x : Ext} {d : CalcOnsets.Data} {o : Out} (h : calculateOnsets c x d = .ok o) :
    ∀ e ∈ o.onsets, ∀ v, some v ∈ e.2 → c.minOnset ≤ v := by
  unfold calculateOnsets at h
  split at h
  · cases h
  · rename_i o1 h1
    split_ifs at h
    cases h
    exact phase_ge _ _ _ h1 (by simp)

/-- C191 is violated: whenever onset functions are calculated, another `min_onset_value` gives others, and the report is
the same. -/
theorem C191_violated {N : Type} (val : N → ℚ) (sh : N → Str) (s : Settings N Hidden) (x : (Str → ℚ) → Ext)
    (d : CalcOnsets.Data) (o : Out) (h : calculateOnsets (cfg val s) (x (corners val s)) d = .ok o)
    (e : (Str × Str) × List (Option ℝ)) (he : e ∈ o.onsets) (v : ℝ) (hv : some v ∈ e.2) :
    ∃ s' : Settings N Hidden, onsetReport sh s' = onsetReport sh s ∧
      calculateOnsets (cfg val s') (x (corners val s')) d ≠ .ok o := by
  refine ⟨{ s with hidden := { s.hidden with minOnset := v + 1 } }, rfl, ?_⟩
  intro h'
  have := onsets_ge h' e he v hv
  change v + 1 ≤ v at this
  linarith

/-! ### Cases that meet the hypotheses -/

private theorem components_filters (c : Cfg) (lo hi : Str → ℚ) (a b : ℕ) : ∀ l : List (Str × List ℚ),
    components { c with low := lo, high := hi } a b l = components c a b l := by
  intro l
  induction l with
  | nil => rfl
  | cons r l ih =>
    unfold components
    rw [ih]
    rfl

private theorem stationLoop_filters (c : Cfg) (lo hi : Str → ℚ) (x : Ext) (d : CalcOnsets.Data) (p : Str)
    (st : List Data.Trace) : ∀ (l : List Str) (o : Out),
      stationLoop { c with low := lo, high := hi } x d p st l o = stationLoop c x d p st l o := by
  intro l
  induction l with
  | nil => intro o; rfl
  | cons s l ih =>
    intro o
    unfold stationLoop
    have e : stationPhase { c with low := lo, high := hi } x d p st s = stationPhase c x d p st s := by
      unfold stationPhase onset
      simp only [components_filters]
      rfl
    rw [e]
    split
    · rfl
    · exact ih _
    · exact ih _

/-- The settings of `OnsetGain.exCfg`. -/
noncomputable def exSettings : Settings ℚ Hidden :=
  ⟨.centred, 1, ["P".toList], [("P".toList, 1 / 10, 2 / 5, 2)], [("P".toList, 0, 0)],
    ⟨fun _ _ => true, fun _ => 1, false, true, false, .energy, 2 / 5⟩⟩

/-- Onset functions are calculated with them, with a finite value. -/
example : ∃ o, calculateOnsets (cfg id exSettings) (OnsetGain.exExt 1)
      { OnsetGain.exData with waveforms := Spec.amplified (fun _ => 1) OnsetGain.exData.waveforms } = .ok o ∧
    ∃ e ∈ o.onsets, ∃ v : ℝ, some v ∈ e.2 := by
  obtain ⟨o, f, h1, h2, h3, h4⟩ := C162_violated 1 one_pos (le_refl _) 1 (le_refl _)
  refine ⟨o, ?_, _, h3 ▸ List.mem_cons_self, _, List.mem_of_getElem? h4⟩
  rw [← h1]
  have e : cfg id exSettings = { OnsetGain.exCfg with low := (cfg id exSettings).low, high := (cfg id exSettings).high } := by
    unfold cfg exSettings OnsetGain.exCfg
    congr 1
    all_goals
      funext p
      by_cases h : ['P'] = p <;> simp [entry, h]
  have l1 : (cfg id exSettings).low "P".toList = OnsetGain.exCfg.low "P".toList := by
    simp [cfg, entry, exSettings, OnsetGain.exCfg]
  have l2 : (cfg id exSettings).high "P".toList = OnsetGain.exCfg.high "P".toList := by
    simp [cfg, entry, exSettings, OnsetGain.exCfg]
  rw [e]
  unfold calculateOnsets
  have hp : ∀ c : Cfg, c.phases = ["P".toList] → phaseLoop c (OnsetGain.exExt 1)
      { OnsetGain.exData with waveforms := Spec.amplified (fun _ => 1) OnsetGain.exData.waveforms } c.phases ⟨[], [], []⟩ =
      phaseLoop c (OnsetGain.exExt 1)
      { OnsetGain.exData with waveforms := Spec.amplified (fun _ => 1) OnsetGain.exData.waveforms } ["P".toList] ⟨[], [], []⟩ := by
    intro c hc; rw [hc]
  rw [hp _ rfl, hp OnsetGain.exCfg rfl]
  simp only [phaseLoop]
  have hpre : ∀ d, preStream { OnsetGain.exCfg with low := (cfg id exSettings).low, high := (cfg id exSettings).high }
      (OnsetGain.exExt 1) d "P".toList = preStream OnsetGain.exCfg (OnsetGain.exExt 1) d "P".toList := by
    intro d
    unfold preStream
    rw [← l1, ← l2]
  rw [hpre]
  simp only [stationLoop_filters]

/-- A report that can be read; the text is printed by `List.replicate`. -/
example : Spec.Readable (fun n : ℕ => (n : ℚ)) (fun n => List.replicate n '1')
    (⟨.classic, 50, ["P".toList, "S".toList], [("P".toList, 2, 16, 2), ("S".toList, 2, 14, 2)],
      [("P".toList, 1, 2), ("S".toList, 1, 2)], ()⟩ : Settings ℕ Unit) := by
  refine ⟨⟨fun x y h => ?_, fun x h => ?_, fun x h => ?_⟩, ?_, ?_, ?_⟩
  · have := congrArg List.length h
    simp only [List.length_replicate] at this
    simp [this]
  · exact absurd (List.eq_of_mem_replicate h) (by decide)
  · exact absurd (List.eq_of_mem_replicate h) (by decide)
  · intro p hp; revert p; decide
  · intro p hp; revert p; decide
  · intro p hp; revert p; decide

end QM
