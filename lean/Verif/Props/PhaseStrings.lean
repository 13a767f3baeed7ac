import Verif.Model.PhaseStrings
import Mathlib.Data.List.Basic
import Mathlib.Tactic.Common

/-!
# C135: the summary plots show the components the onset functions were made from

English: the waveform panels of the pick summary and of the event summary show, for each phase, the
components named in the channel map of the phase: all P components on the P panel, each S component on one
of the two S panels, the first letter with the first number and the second with the second.

The code does so when the map is written with commas and has as many letters as numbers, or one kind only,
and at most two of each (`C135_components_shown_partial`).  It does not for unequal numbers of letters and
numbers (`C135_violated_unequal`), for a list without commas, which the onset function accepts
(`C135_violated_no_commas`), and it raises `KeyError` if the channel maps name the one phase used
(`C135_violated_one_phase`).
-/

namespace QM

open QM.PhaseStrings

/-- Specification: a character that can be a component code: not part of the syntax of patterns. -/
def PlainComp (c : Char) : Prop := c ∉ [',', '*', '[', ']', '!', '-', '?']

/-- Specification: the channel map of a phase that names the components `cs`: `*[a,b,...]`, or `*c`. -/
def IsChannelMap (pat : List Char) (cs : List Char) : Prop :=
  pat = '*' :: '[' :: cs.intersperse ',' ++ [']'] ∨ ∃ c, cs = [c] ∧ pat = ['*', c]

private theorem rstrip_not_mem {c : Char} {s : List Char} (h : c ∉ s) : rstrip c s = s := by
  unfold rstrip
  have : s.reverse.dropWhile (· == c) = s.reverse := by
    cases hs : s.reverse with
    | nil => rfl
    | cons a l =>
      have ha : a ∈ s := by
        rw [← List.mem_reverse, hs]; simp
      have : a ≠ c := fun e => h (e ▸ ha)
      simp [this]
  rw [this, List.reverse_reverse]

private theorem dropWhile_not_mem {c : Char} {s : List Char} (h : c ∉ s) :
    s.dropWhile (· == c) = s := by
  cases s with
  | nil => rfl
  | cons a l =>
    have : a ≠ c := fun e => h (by simp [e])
    simp [this]

private theorem strip_not_mem {c : Char} {s : List Char} (h : c ∉ s) : strip c s = s := by
  unfold strip
  rw [dropWhile_not_mem h, rstrip_not_mem h]

private theorem rstrip_append {c : Char} (s : List Char) : rstrip c (s ++ [c]) = rstrip c s := by
  unfold rstrip
  simp

private theorem mem_rstrip {c x : Char} (s : List Char) (h : x ≠ c) : x ∈ rstrip c s ↔ x ∈ s := by
  unfold rstrip
  rw [List.mem_reverse, ← List.mem_reverse (as := s)]
  generalize s.reverse = t
  induction t with
  | nil => simp
  | cons a l ih =>
    by_cases ha : a = c
    · subst ha
      simp [h, ih]
    · simp [ha]

private theorem everySecond_intersperse (l : List Char) : everySecond (l.intersperse ',') = l := by
  induction l with
  | nil => rfl
  | cons a l ih =>
    cases l with
    | nil => rfl
    | cons b l =>
      simp only [List.intersperse, everySecond]
      rw [ih]

private theorem mem_intersperse_comma {x : Char} (l : List Char) (h : x ∈ l.intersperse ',') :
    x ∈ l ∨ x = ',' := by
  induction l with
  | nil => simp at h
  | cons a l ih =>
    cases l with
    | nil => simp at h; simp [h]
    | cons b l =>
      simp only [List.intersperse, List.mem_cons] at h
      rcases h with h | h | h
      · simp [h]
      · simp [h]
      · rcases ih h with h | h
        · exact Or.inl (List.mem_cons_of_mem _ h)
        · exact Or.inr h

private theorem mem_intersperse_of {x : Char} (l : List Char) (h : x ∈ l) :
    x ∈ l.intersperse ',' := by
  induction l with
  | nil => simp at h
  | cons a l ih =>
    cases l with
    | nil => simpa using h
    | cons b l =>
      simp only [List.intersperse, List.mem_cons]
      rcases List.mem_cons.1 h with h | h
      · exact Or.inl h
      · exact Or.inr (Or.inr (ih h))

private theorem strip_brackets (X : List Char) (h1 : '*' ∉ X) (h2 : '[' ∉ X) (h3 : ']' ∉ X) :
    strip ']' (strip '[' (strip '*' ('*' :: '[' :: X ++ [']']))) = X := by
  have e1 : strip '*' ('*' :: '[' :: X ++ [']']) = '[' :: X ++ [']'] := by
    have : (('*' :: '[' :: X ++ [']'] : List Char)).dropWhile (· == '*') = '[' :: X ++ [']'] := by
      simp
    unfold strip
    rw [this]
    exact rstrip_not_mem (by simp [h1])
  have e2 : strip '[' ('[' :: X ++ [']']) = X ++ [']'] := by
    have : (('[' :: X ++ [']'] : List Char)).dropWhile (· == '[') = X ++ [']'] := by
      show (('[' :: (X ++ [']']) : List Char)).dropWhile (· == '[') = X ++ [']']
      rw [List.dropWhile_cons_of_pos (by simp)]
      exact dropWhile_not_mem (by simp [h2])
    unfold strip
    rw [this]
    exact rstrip_not_mem (by simp [h2])
  have e3 : strip ']' (X ++ [']']) = X := by
    unfold strip
    cases X with
    | nil => rfl
    | cons a l =>
      have ha : a ≠ ']' := fun e => h3 (by simp [e])
      have : ((a :: l ++ [']'] : List Char)).dropWhile (· == ']') = a :: l ++ [']'] := by
        simp [ha]
      rw [this, rstrip_append, rstrip_not_mem h3]
  rw [e1, e2, e3]

private theorem components_map {pat cs : List Char} (h : IsChannelMap pat cs)
    (hc : ∀ c ∈ cs, PlainComp c) : components pat = cs := by
  rcases h with h | ⟨c, rfl, rfl⟩
  · subst h
    have key : ∀ d ∈ ['*', '[', ']'], d ∉ cs.intersperse ',' := by
      intro d hd hm
      rcases mem_intersperse_comma _ hm with h | h
      · have := hc d h
        unfold PlainComp at this
        simp at hd this
        tauto
      · subst h; simp at hd
    unfold components
    rw [strip_brackets _ (key _ (by simp)) (key _ (by simp)) (key _ (by simp)),
      everySecond_intersperse]
  · have := hc c (by simp)
    unfold PlainComp at this
    simp at this
    obtain ⟨-, h1, h2, h3, -⟩ := this
    unfold components
    have e : strip '*' ['*', c] = [c] := by
      unfold strip
      have : (['*', c] : List Char).dropWhile (· == '*') = [c] := by simp [h1]
      rw [this]
      exact rstrip_not_mem (by simp [Ne.symm h1])
    rw [e, strip_not_mem (c := '[') (by simp [Ne.symm h2]), strip_not_mem (c := ']') (by simp [Ne.symm h3])]
    rfl

private theorem selects_bracket (s : List Char) {x : Char} (hx : x ≠ ',') :
    selects (bracket s) x = true ↔ x ∈ s := by
  have : selects (bracket s) x = (rstrip ',' s).contains x := by
    show ((rstrip ',' s ++ [']']).dropLast.contains x) = _
    rw [List.dropLast_concat]
  rw [this, List.contains_iff_mem, mem_rstrip _ hx]

private theorem mem_commas (l : List Char) {x : Char} (hx : x ≠ ',') : x ∈ commas l ↔ x ∈ l := by
  induction l with
  | nil => simp [commas]
  | cons a l ih => simp [commas, ih, hx]

private theorem mem_take_drop (l : List Char) (n : ℕ) (x : Char) :
    x ∈ (l.drop n).take 1 ↔ l[n]? = some x := by
  induction l generalizing n with
  | nil => simp
  | cons a l ih =>
    cases n with
    | zero => simp [eq_comm]
    | succ n => simpa using ih n

private theorem used_map {pat cs avail : List Char} (h : IsChannelMap pat cs)
    (hc : ∀ c ∈ cs, PlainComp c) (ha : ∀ c ∈ avail, PlainComp c) :
    used pat avail = avail.filter (· ∈ cs) := by
  rcases h with h | ⟨c, rfl, rfl⟩
  · subst h
    have : used ('*' :: '[' :: cs.intersperse ',' ++ [']']) avail
        = avail.filter (selects ('[' :: (cs.intersperse ',' ++ [']']))) := by
      cases hX : cs.intersperse ',' with
      | nil => rfl
      | cons a l => rfl
    rw [this]
    apply List.filter_congr
    intro x hx
    have hp := ha x hx
    unfold PlainComp at hp
    have hx' : x ≠ ',' := fun e => hp (by simp [e])
    have : selects ('[' :: (cs.intersperse ',' ++ [']'])) x = (cs.intersperse ',').contains x := by
      show ((cs.intersperse ',' ++ [']']).dropLast.contains x) = _
      rw [List.dropLast_concat]
    rw [this, Bool.eq_iff_iff, List.contains_iff_mem, decide_eq_true_eq]
    constructor
    · intro hm
      rcases mem_intersperse_comma _ hm with h | h
      · exact h
      · exact absurd h hx'
    · exact mem_intersperse_of _
  · show avail.filter (· == c) = _
    apply List.filter_congr
    intro x _
    rw [Bool.eq_iff_iff]
    simp

private theorem mem_s1 (num : Char → Bool) (ss : List Char) {x : Char} (hx : x ≠ ',')
    (hbal : (ss.filter fun c => !num c).length = (ss.filter num).length
      ∨ ss.filter (fun c => !num c) = [] ∨ ss.filter num = []) :
    (x ∈ (sStrings num ss).1 ↔
      (ss.filter fun c => !num c)[0]? = some x ∨ (ss.filter num)[0]? = some x)
    ∧ (x ∈ (sStrings num ss).2 ↔
      (ss.filter fun c => !num c)[1]? = some x ∨ (ss.filter num)[1]? = some x) := by
  unfold sStrings
  generalize ss.filter (fun c => !num c) = L at hbal ⊢
  generalize ss.filter num = N at hbal ⊢
  by_cases hc : (!L.isEmpty && !N.isEmpty) = true
  · rw [if_pos hc]
    match L, N, hc, hbal with
    | [], _, hc, _ => simp at hc
    | _ :: _, [], hc, _ => simp at hc
    | [a], [n], _, _ => simp [hx, eq_comm]
    | [a], n :: m :: l, _, hb => simp at hb
    | a :: b :: l, [n], _, hb => simp at hb
    | a :: b :: l, n :: m :: l', _, _ => simp [hx, eq_comm]
  · rw [if_neg hc]
    simp only [List.mem_append, mem_commas _ hx]
    exact ⟨by simpa using or_congr (mem_take_drop L 0 x) (mem_take_drop N 0 x),
      or_congr (mem_take_drop L 1 x) (mem_take_drop N 1 x)⟩

/-- **C135 (partial).**  Whatever characters count as numbers: if the channel maps of P and S name the
components `ps` and `ss`, and `ss` has as many letters as numbers or only one kind, then the P panel shows
the P components present at the station and no others, which are those the onset function for P uses; the
first S panel shows the first letter and the first number, the second S panel the second letter and the
second number, and nothing else.  Missing: unequal numbers of letters and numbers, lists without commas,
and channel maps for a single phase, for which the claim is false. -/
theorem C135_components_shown_partial (num : Char → Bool) (maps : Char → Option (List Char))
    (p s ps ss avail : List Char) (hP : maps 'P' = some p) (hS : maps 'S' = some s)
    (hp : IsChannelMap p ps) (hs : IsChannelMap s ss)
    (hpc : ∀ c ∈ ps, PlainComp c) (hsc : ∀ c ∈ ss, PlainComp c) (ha : ∀ c ∈ avail, PlainComp c)
    (hbal : (ss.filter fun c => !num c).length = (ss.filter num).length
      ∨ ss.filter (fun c => !num c) = [] ∨ ss.filter num = []) :
    ∃ a b c, panels num maps avail = .ok (a, b, c)
      ∧ a = avail.filter (· ∈ ps) ∧ used p avail = a
      ∧ b = avail.filter (fun x => (ss.filter fun c => !num c)[0]? = some x
          ∨ (ss.filter num)[0]? = some x)
      ∧ c = avail.filter (fun x => (ss.filter fun c => !num c)[1]? = some x
          ∨ (ss.filter num)[1]? = some x) := by
  refine ⟨_, _, _, ?_, rfl, used_map hp hpc ha, rfl, rfl⟩
  have hplain : ∀ x ∈ avail, x ≠ ',' := by
    intro x hx e
    have := ha x hx
    unfold PlainComp at this
    exact this (by simp [e])
  unfold panels phaseStrings
  rw [hP, hS]
  simp only [components_map hp hpc, components_map hs hsc, panel]
  congr 1
  refine Prod.ext ?_ (Prod.ext ?_ ?_)
  · apply List.filter_congr
    intro x hx
    rw [Bool.eq_iff_iff, selects_bracket _ (hplain x hx), mem_commas _ (hplain x hx),
      decide_eq_true_eq]
  · apply List.filter_congr
    intro x hx
    rw [Bool.eq_iff_iff, selects_bracket _ (hplain x hx), decide_eq_true_eq]
    exact (mem_s1 num ss (hplain x hx) hbal).1
  · apply List.filter_congr
    intro x hx
    rw [Bool.eq_iff_iff, selects_bracket _ (hplain x hx), decide_eq_true_eq]
    exact (mem_s1 num ss (hplain x hx) hbal).2

private theorem mem_short (l : List Char) (h : l.length ≤ 2) (x : Char) :
    x ∈ l ↔ l[0]? = some x ∨ l[1]? = some x := by
  match l, h with
  | [], _ => simp
  | [a], _ => simp [eq_comm]
  | [a, b], _ => simp [eq_comm]
  | a :: b :: c :: l, h => simp at h

private theorem nodup_two (l : List Char) (h : l.Nodup) (x : Char) (h0 : l[0]? = some x) :
    l[1]? ≠ some x := by
  intro h1
  match l, h with
  | [], _ => simp at h0
  | [a], _ => simp at h1
  | a :: b :: l, h =>
    simp at h0 h1 h
    exact h.1.1 (h0.trans h1.symm)

/-- **C135 (partial).**  If moreover there are at most two letters and two numbers, and no component is
named twice, each component present that the onset function for S uses is on exactly one of the two S
panels, and the S panels show no other. -/
theorem C135_each_once_partial (num : Char → Bool) (maps : Char → Option (List Char))
    (p s ps ss avail : List Char) (hP : maps 'P' = some p) (hS : maps 'S' = some s)
    (hp : IsChannelMap p ps) (hs : IsChannelMap s ss)
    (hpc : ∀ c ∈ ps, PlainComp c) (hsc : ∀ c ∈ ss, PlainComp c) (ha : ∀ c ∈ avail, PlainComp c)
    (hbal : (ss.filter fun c => !num c).length = (ss.filter num).length
      ∨ ss.filter (fun c => !num c) = [] ∨ ss.filter num = [])
    (hl : (ss.filter fun c => !num c).length ≤ 2) (hn : (ss.filter num).length ≤ 2)
    (hd : ss.Nodup) :
    ∃ a b c, panels num maps avail = .ok (a, b, c)
      ∧ (∀ x, x ∈ used s avail ↔ x ∈ b ∨ x ∈ c) ∧ (∀ x ∈ b, x ∉ c) := by
  obtain ⟨a, b, c, h, -, -, rfl, rfl⟩ :=
    C135_components_shown_partial num maps p s ps ss avail hP hS hp hs hpc hsc ha hbal
  refine ⟨a, _, _, h, ?_, ?_⟩
  · intro x
    rw [used_map hs hsc ha]
    simp only [List.mem_filter, decide_eq_true_eq]
    have e : x ∈ ss ↔ x ∈ ss.filter (fun c => !num c) ∨ x ∈ ss.filter num := by
      simp only [List.mem_filter, Bool.not_eq_true']
      cases num x <;> simp
    rw [e, mem_short _ hl, mem_short _ hn]
    tauto
  · intro x hb hc
    simp only [List.mem_filter, decide_eq_true_eq] at hb hc
    have hL : (ss.filter fun c => !num c).Nodup := hd.filter _
    have hN : (ss.filter num).Nodup := hd.filter _
    have disj : ∀ i j : ℕ, (ss.filter fun c => !num c)[i]? = some x → (ss.filter num)[j]? = some x
        → False := by
      intro i j h1 h2
      have m1 := List.mem_of_getElem? h1
      have m2 := List.mem_of_getElem? h2
      simp only [List.mem_filter, Bool.not_eq_true'] at m1 m2
      rw [m1.2] at m2
      exact absurd m2.2 (by simp)
    rcases hb.2 with h1 | h1 <;> rcases hc.2 with h2 | h2
    · exact nodup_two _ hL x h1 h2
    · exact disj _ _ h1 h2
    · exact disj _ _ h2 h1
    · exact nodup_two _ hN x h1 h2

/-- **C135 is violated: unequal numbers of letters and numbers.**  With one number and two letters or more,
the second letter is on neither S panel, although the onset function uses it. -/
theorem C135_violated_unequal (num : Char → Bool) (maps : Char → Option (List Char))
    (p s ss avail : List Char) (hP : maps 'P' = some p) (hS : maps 'S' = some s)
    (hs : IsChannelMap s ss) (hsc : ∀ c ∈ ss, PlainComp c) (ha : ∀ c ∈ avail, PlainComp c)
    (hd : ss.Nodup) (x y : Char) (l : List Char) (n : Char)
    (hL : ss.filter (fun c => !num c) = x :: y :: l) (hN : ss.filter num = [n]) (hy : y ∈ avail) :
    ∃ a b c, panels num maps avail = .ok (a, b, c) ∧ y ∈ used s avail ∧ y ∉ b ∧ y ∉ c := by
  have hyL : y ∈ ss.filter (fun c => !num c) := by rw [hL]; simp
  have hyss := (List.mem_filter.1 hyL).1
  have hyn : num y = false := by simpa using (List.mem_filter.1 hyL).2
  have hyc : y ≠ ',' := by
    have := ha y hy
    unfold PlainComp at this
    exact fun e => this (by simp [e])
  have hxy : x ≠ y := by
    have : (ss.filter fun c => !num c).Nodup := hd.filter _
    rw [hL] at this
    simp at this
    exact this.1.1
  have hny : y ≠ n := by
    rintro rfl
    have : y ∈ ss.filter num := by rw [hN]; simp
    have := (List.mem_filter.1 this).2
    rw [hyn] at this; simp at this
  have e : sStrings num ss = ([x, ',', n, ','], []) := by
    unfold sStrings
    rw [hL, hN]
    simp
  refine ⟨panel (bracket (commas (components p))) avail, panel (bracket [x, ',', n, ',']) avail,
    panel (bracket []) avail, ?_, ?_, ?_, ?_⟩
  · unfold panels phaseStrings
    rw [hP, hS]
    simp only [components_map hs hsc, e]
  · rw [used_map hs hsc ha]
    simp [hy, hyss]
  · intro hb
    have := (selects_bracket _ hyc).1 (List.mem_filter.1 hb).2
    simp [Ne.symm hxy, hyc, hny] at this
  · intro hb
    have := (selects_bracket _ hyc).1 (List.mem_filter.1 hb).2
    simp at this

/-- **C135 is violated: lists without commas.**  The onset function uses both components of the channel map
`*[ab]`, but the S panels show only the first. -/
theorem C135_violated_no_commas (num : Char → Bool) (maps : Char → Option (List Char))
    (p avail : List Char) (a b : Char) (hP : maps 'P' = some p)
    (hS : maps 'S' = some ['*', '[', a, b, ']'])
    (ha : PlainComp a) (hb : PlainComp b) (hab : a ≠ b) (hmem : b ∈ avail) :
    ∃ u v w, panels num maps avail = .ok (u, v, w)
      ∧ b ∈ used ['*', '[', a, b, ']'] avail ∧ b ∉ v ∧ b ∉ w := by
  unfold PlainComp at ha hb
  simp at ha hb
  have e : components ['*', '[', a, b, ']'] = [a] := by
    have := strip_brackets [a, b] (by simp; tauto) (by simp; tauto) (by simp; tauto)
    unfold components
    exact (congrArg everySecond this).trans rfl
  have hbc : b ≠ ',' := hb.1
  refine ⟨panel (bracket (commas (components p))) avail, panel (bracket (sStrings num [a]).1) avail,
    panel (bracket (sStrings num [a]).2) avail, ?_, ?_, ?_, ?_⟩
  · unfold panels phaseStrings
    rw [hP, hS]
    simp only [e]
  · show b ∈ avail.filter (selects ['[', a, b, ']'])
    simp [hmem, selects]
  · intro h
    have := (selects_bracket _ hbc).1 (List.mem_filter.1 h).2
    rw [(mem_s1 num [a] hbc (by cases hn : num a <;> simp [hn])).1] at this
    cases hn : num a <;> simp [hn, hab] at this
  · intro h
    have := (selects_bracket _ hbc).1 (List.mem_filter.1 h).2
    rw [(mem_s1 num [a] hbc (by cases hn : num a <;> simp [hn])).2] at this
    cases hn : num a <;> simp [hn] at this

/-- **C135 is violated: channel maps for one phase.**  If the channel maps name only P (or only S), which
is all that onset functions for that phase alone need, making the panels raises `KeyError`, whatever the
station recorded. -/
theorem C135_violated_one_phase (num : Char → Bool) (maps : Char → Option (List Char))
    (avail : List Char) (h : maps 'P' = none ∨ maps 'S' = none) :
    panels num maps avail = .error .keyError := by
  unfold panels phaseStrings
  rcases h with h | h
  · rw [h]
  · cases hP : maps 'P' <;> simp [h]

/-- Channel maps given by a list of phases and patterns. -/
def mapsOf (l : List (Char × String)) : Char → Option (List Char) := fun ph =>
  (l.find? (·.1 == ph)).map (·.2.toList)

/-- The default channel maps meet the hypotheses: N and 1 on one panel, E and 2 on the other. -/
example : IsChannelMap "*Z".toList ['Z'] ∧ IsChannelMap "*[N,E,1,2]".toList ['N', 'E', '1', '2']
    ∧ (∀ c ∈ ['Z', 'N', 'E', '1', '2'], PlainComp c)
    ∧ (['N', 'E', '1', '2'].filter fun c => !Char.isDigit c) = ['N', 'E']
    ∧ ['N', 'E', '1', '2'].filter Char.isDigit = ['1', '2']
    ∧ panels Char.isDigit (mapsOf [('P', "*Z"), ('S', "*[N,E,1,2]")]) ['Z', '1', '2']
      = .ok (['Z'], ['1'], ['2'])
    ∧ panels Char.isDigit (mapsOf [('P', "*Z"), ('S', "*[N,E,1,2]")]) ['Z', 'E', 'N', '1']
      = .ok (['Z'], ['N', '1'], ['E']) := by
  refine ⟨Or.inr ⟨'Z', rfl, rfl⟩, Or.inl (by decide), by unfold PlainComp; decide, by decide, by decide,
    by decide, by decide⟩

/-- The violations: `*[N,E,1]` and `*[NE]` lose E; channel maps for P alone raise `KeyError`. -/
example : panels Char.isDigit (mapsOf [('P', "*Z"), ('S', "*[N,E,1]")]) ['Z', 'N', 'E']
      = .ok (['Z'], ['N'], [])
    ∧ used "*[N,E,1]".toList ['Z', 'N', 'E'] = ['N', 'E']
    ∧ panels Char.isDigit (mapsOf [('P', "*Z"), ('S', "*[NE]")]) ['Z', 'N', 'E']
      = .ok (['Z'], ['N'], [])
    ∧ panels Char.isDigit (mapsOf [('P', "*Z")]) ['Z'] = .error .keyError := by
  refine ⟨by decide, by decide, by decide, by decide⟩

end QM
