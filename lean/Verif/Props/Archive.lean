import Verif.Lemmas.Archive
import Verif.Props.Data

/-!
# Which files of the archive are read: C77
-/

namespace QM
open QM.Archive QM.Spec QM.EventId

/-- The formats in which the name of the station is delimited in the pattern. -/
def Delimited (f : Format) : Prop :=
  f = .seisComp3 ∨ f = .yearJdAnyStationAny ∨ f = .stationDate ∨ f = .yearJdUStationU

/-- Two days are told apart by the calendar fields used in the format. -/
def SameDay (f : Format) (d d' : Day) : Prop :=
  match f with
  | .stationDate => d.year = d'.year ∧ d.month = d'.month ∧ d.day = d'.day
  | _ => d.year = d'.year ∧ d.jday = d'.jday

theorem dotPad (w n : ℕ) : '.' ∉ padDigits w n := not_mem_padDigits w n (by decide)
theorem usPad (w n : ℕ) : '_' ∉ padDigits w n := not_mem_padDigits w n (by decide)

theorem yj {d d' : Day} (h : Day.OK d) (h' : Day.OK d')
    (hy : padDigits 4 d.year = padDigits 4 d'.year) (hj : padDigits 3 d.jday = padDigits 3 d'.jday) :
    d.year = d'.year ∧ d.jday = d'.jday :=
  ⟨padDigits_inj h.year h'.year hy, padDigits_inj h.jday h'.jday hj⟩

theorem yj_us {d d' : Day} (h : Day.OK d) (h' : Day.OK d')
    (he : padDigits 4 d.year ++ '_' :: padDigits 3 d.jday =
      padDigits 4 d'.year ++ '_' :: padDigits 3 d'.jday) : d.year = d'.year ∧ d.jday = d'.jday := by
  obtain ⟨h1, h2⟩ := sep_inj (usPad _ _) (usPad _ _) he
  exact yj h h' h1 h2

/-- C77, what does hold: in the formats that delimit the station's name, the pattern for a station
and day matches a file exactly if it is of that station and day. -/
theorem C77_match_iff_partial (f : Format) (hf : Delimited f) (st st' : Code) (hst : Plain st)
    (hst' : Plain st') (d d' : Day) (hd : Day.OK d) (hd' : Day.OK d') (path : List Code)
    (hp : IsFileOf st' d' f path) :
    matchPath (pattern f st d) path = true ↔ st = st' ∧ SameDay f d d' := by
  cases hp with
  | yearJdStation b => simp [Delimited] at hf
  | stationYearJd cha hc => simp [Delimited] at hf
  | yearJdUStation b => simp [Delimited] at hf
  | seisComp3 net loc cha hn hl hc =>
    simp only [matchPath, pattern, Bool.and_eq_true, Bool.and_true, match_lits_end, match_star_end,
      true_and, List.cons_append, List.append_assoc, match_star, match_lits, SameDay]
    constructor
    · rintro ⟨h1, h2, a, b, hb, c, rfl, e, rfl, g, rfl, u, v, rfl, w, rfl, x, y, rfl, z, rfl, k, rfl, m,
        rfl, rfl⟩
      have hsp := congrArg (fun l : List Char => l.splitOn '.') hb
      simp only [List.singleton_append, List.cons_append, List.nil_append, splitOn_sep,
        splitOn_plain hn.1, splitOn_plain hst'.1, splitOn_plain hl.1, splitOn_plain hc.1,
        splitOn_plain (dotPad _ _), splitOn_plain hst.1] at hsp
      have e1 : ∀ l : List Char, List.splitOn '.' ('D' :: '.' :: l) = ['D'] :: l.splitOn '.' := by
        intro l
        have := splitOn_sep (c := '.') ['D'] l
        rw [splitOn_plain (s := ['D']) (by decide)] at this
        exact this
      simp only [e1, splitOn_sep, splitOn_plain (dotPad _ _)] at hsp
      have hlen := congrArg List.length hsp
      simp only [List.length_append, List.length_cons, List.length_nil] at hlen
      have l1 := splitOn_pos '.' a
      have l2 := splitOn_pos '.' u
      have l3 := splitOn_pos '.' x
      rw [splitOn_eq_of_length (s := a) (by omega), splitOn_eq_of_length (s := u) (by omega),
        splitOn_eq_of_length (s := x) (by omega)] at hsp
      simp only [List.cons_append, List.nil_append, List.cons.injEq, and_true, true_and] at hsp
      obtain ⟨-, q1, -, -, q2, q3⟩ := hsp
      exact ⟨q1.symm, yj hd hd' q2.symm q3.symm⟩
    · rintro ⟨rfl, h1, h2⟩
      rw [h1, h2]
      exact ⟨rfl, rfl, net, _, rfl, _, rfl, _, rfl, _, rfl, loc, _, rfl, _, rfl, cha, _, rfl, _, rfl, _,
        rfl, _, rfl, rfl⟩
  | yearJdAnyStationAny a b ha hb =>
    simp only [matchPath, pattern, Bool.and_eq_true, Bool.and_true, match_lits_end, match_star_end,
      List.cons_append, List.append_assoc, match_star, match_lits, SameDay, and_true]
    constructor
    · rintro ⟨h1, h2, a', b', hb', c, rfl, e, rfl, g, rfl⟩
      have hsp := congrArg (fun l : List Char => l.splitOn '_') hb'
      simp only [List.cons_append, List.nil_append, splitOn_sep, splitOn_plain ha.2, splitOn_plain hst'.2,
        splitOn_plain hb, splitOn_plain hst.2] at hsp
      have hlen := congrArg List.length hsp
      simp only [List.length_append, List.length_cons, List.length_nil] at hlen
      have l1 := splitOn_pos '_' a'
      have l2 := splitOn_pos '_' g
      rw [splitOn_eq_of_length (s := a') (by omega), splitOn_eq_of_length (s := g) (by omega)] at hsp
      simp only [List.cons_append, List.nil_append, List.cons.injEq, and_true] at hsp
      exact ⟨hsp.2.1.symm, yj hd hd' h1.symm h2.symm⟩
    · rintro ⟨rfl, h1, h2⟩
      rw [h1, h2]
      exact ⟨rfl, rfl, a, _, rfl, _, rfl, _, rfl, _, rfl⟩
  | stationDate =>
    simp only [matchPath, pattern, Bool.and_eq_true, Bool.and_true, match_lits_end,
      List.append_assoc, match_lits, SameDay]
    constructor
    · rintro ⟨rfl, a, h1, b, rfl, c, rfl, e, rfl, rfl⟩
      have h2 := List.append_cancel_left h1
      simp only [List.singleton_append, List.cons.injEq, true_and] at h2
      obtain ⟨q1, q2⟩ := List.append_inj h2 (by simp [padDigits_length])
      obtain ⟨q2, q3⟩ := List.append_inj q2 (by simp [padDigits_length])
      exact ⟨rfl, padDigits_inj hd.year hd'.year q1.symm, padDigits_inj hd.month hd'.month q2.symm,
        padDigits_inj hd.day hd'.day q3.symm⟩
    · rintro ⟨rfl, h1, h2, h3⟩
      rw [h1, h2, h3]
      exact ⟨rfl, _, rfl, _, rfl, _, rfl, _, rfl, rfl⟩
  | yearJdUStationU b =>
    simp only [matchPath, pattern, Bool.and_eq_true, Bool.and_true, match_lits_end, match_star_end,
      List.append_assoc, match_lits, SameDay, and_true]
    constructor
    · rintro ⟨⟨t, h1, t', rfl, rfl⟩, c, h2, e, rfl⟩
      obtain ⟨q1, -⟩ := sep_inj (c := '_') hst'.2 hst.2 (by simpa using h2)
      exact ⟨q1.symm, yj_us hd hd' (by simpa using h1.symm)⟩
    · rintro ⟨rfl, h1, h2⟩
      rw [h1, h2]
      exact ⟨⟨_, rfl, _, rfl, rfl⟩, _, rfl, b, rfl⟩

/-- C77: in every format, a file of a station and day is matched by the pattern for them. -/
theorem C77_own_files_found (f : Format) (st : Code) (d : Day) (path : List Code)
    (hp : IsFileOf st d f path) : matchPath (pattern f st d) path = true := by
  cases hp with
  | seisComp3 net loc cha hn hl hc =>
    simp only [matchPath, pattern, Bool.and_eq_true, Bool.and_true, match_lits_end, match_star_end,
      true_and, List.cons_append, List.append_assoc, match_star, match_lits]
    exact ⟨net, _, rfl, _, rfl, _, rfl, _, rfl, loc, _, rfl, _, rfl, cha, _, rfl, _, rfl, _, rfl, _,
      rfl, rfl⟩
  | yearJdAnyStationAny a b ha hb =>
    simp only [matchPath, pattern, Bool.and_eq_true, Bool.and_true, match_lits_end, match_star_end,
      List.cons_append, List.append_assoc, match_star, match_lits, and_true]
    exact ⟨trivial, trivial, a, _, rfl, _, rfl, _, rfl, _, rfl⟩
  | yearJdStation b =>
    simp only [matchPath, pattern, Bool.and_eq_true, Bool.and_true, match_lits_end, match_star_end,
      match_lits, and_true, true_and]
    exact ⟨b, rfl⟩
  | stationYearJd cha hc =>
    simp only [matchPath, pattern, Bool.and_true, match_lits_end, List.cons_append, List.append_assoc,
      match_star, match_lits]
    exact ⟨[], _, rfl, _, rfl, _, rfl, cha, _, rfl, _, rfl, _, rfl, _, rfl, rfl⟩
  | stationDate =>
    simp only [matchPath, pattern, Bool.and_eq_true, Bool.and_true, match_lits_end,
      List.append_assoc, match_lits]
    exact ⟨trivial, _, rfl, _, rfl, _, rfl, _, rfl, rfl⟩
  | yearJdUStation b =>
    simp only [matchPath, pattern, Bool.and_eq_true, Bool.and_true, match_lits_end, match_star_end,
      List.append_assoc, match_lits, and_true]
    exact ⟨⟨_, rfl, _, rfl, rfl⟩, b, rfl⟩
  | yearJdUStationU b =>
    simp only [matchPath, pattern, Bool.and_eq_true, Bool.and_true, match_lits_end, match_star_end,
      List.append_assoc, match_lits, and_true]
    exact ⟨⟨_, rfl, _, rfl, rfl⟩, _, rfl, b, rfl⟩

/-- C77: in every format, a pattern never matches a file of another day. -/
theorem C77_other_day_never (f : Format) (st st' : Code) (hst : Plain st) (hst' : Plain st')
    (d d' : Day) (hd : Day.OK d) (hd' : Day.OK d') (path : List Code) (hp : IsFileOf st' d' f path)
    (hne : ¬ SameDay f d d') : matchPath (pattern f st d) path = false := by
  by_cases hf : Delimited f
  · rw [← Bool.not_eq_true, C77_match_iff_partial f hf st st' hst hst' d d' hd hd' path hp]
    exact fun h => hne h.2
  · rw [← Bool.not_eq_true]
    intro hm
    cases hp with
    | seisComp3 => simp [Delimited] at hf
    | yearJdAnyStationAny => simp [Delimited] at hf
    | stationDate => simp [Delimited] at hf
    | yearJdUStationU => simp [Delimited] at hf
    | yearJdStation b =>
      simp only [matchPath, pattern, Bool.and_eq_true, match_lits_end] at hm
      exact hne (yj hd hd' hm.1.symm hm.2.1.symm)
    | yearJdUStation b =>
      simp only [matchPath, pattern, Bool.and_eq_true, match_lits_end, List.append_assoc,
        match_lits] at hm
      obtain ⟨⟨t, h1, t', rfl, rfl⟩, -⟩ := hm
      exact hne (yj_us hd hd' (by simpa using h1.symm))
    | stationYearJd cha hc =>
      simp only [matchPath, pattern, Bool.and_true, match_lits_end, List.cons_append,
        List.append_assoc, match_star, match_lits] at hm
      obtain ⟨a, b, hb, c, rfl, e, rfl, g, u, rfl, v, rfl, w, rfl, x, rfl, rfl⟩ := hm
      have hsp := congrArg (fun l : List Char => l.splitOn '.') hb
      simp only [List.nil_append] at hsp
      rw [← List.append_assoc a st] at hsp
      simp only [splitOn_sep, splitOn_plain hst'.1, splitOn_plain hc.1,
        splitOn_plain (dotPad _ _)] at hsp
      have hlen := congrArg List.length hsp
      simp only [List.length_append, List.length_cons, List.length_nil] at hlen
      have l1 := splitOn_pos '.' (a ++ st)
      have l2 := splitOn_pos '.' g
      rw [splitOn_eq_of_length (s := a ++ st) (by omega), splitOn_eq_of_length (s := g) (by omega)] at hsp
      simp only [List.cons_append, List.nil_append, List.cons.injEq, and_true] at hsp
      exact hne (yj hd hd' hsp.2.2.1.symm hsp.2.2.2.symm)

/-- C77 is violated in the other three formats: a file of station `A10` (or `XA1`) is read for
station `A1`. -/
theorem C77_violated : ∀ f : Format, ¬ Delimited f → ∃ (st st' : Code) (d : Day) (path : List Code),
    Plain st ∧ Plain st' ∧ Day.OK d ∧ IsFileOf st' d f path ∧ st ≠ st' ∧
    matchPath (pattern f st d) path = true := by
  intro f hf
  have hd : Day.OK ⟨2020, 1, 1, 1⟩ := ⟨by norm_num, by norm_num, by norm_num, by norm_num⟩
  cases f with
  | seisComp3 => simp [Delimited] at hf
  | yearJdAnyStationAny => simp [Delimited] at hf
  | stationDate => simp [Delimited] at hf
  | yearJdUStationU => simp [Delimited] at hf
  | yearJdStation =>
    exact ⟨['A', '1'], ['A', '1', '0'], ⟨2020, 1, 1, 1⟩, _, by decide, by decide, hd,
      .yearJdStation ['.', 'Z'], by decide, by decide +kernel⟩
  | yearJdUStation =>
    exact ⟨['A', '1'], ['A', '1', '0'], ⟨2020, 1, 1, 1⟩, _, by decide, by decide, hd,
      .yearJdUStation ['.', 'Z'], by decide, by decide +kernel⟩
  | stationYearJd =>
    exact ⟨['A', '1'], ['X', 'A', '1'], ⟨2020, 1, 1, 1⟩, _, by decide, by decide, hd,
      .stationYearJd ['Z'] (by decide), by decide, by decide +kernel⟩

/-- C77: over a whole window, in the formats that delimit the station's name, a file of the archive
is read exactly if its station is selected and its day contains a time of the window. -/
theorem C77_files_read_partial (f : Format) (hf : Delimited f) (cal : ℤ → Day) (archive : List (List Code))
    (stations : List Code) (hs : ∀ s ∈ stations, Plain s) (start stop : ℚ) (h : start ≤ stop)
    (hcal : ∀ d : ℤ, start < 86400 * ((d : ℚ) + 1) → 86400 * (d : ℚ) ≤ stop → Day.OK (cal d))
    (st : Code) (hst : Plain st) (k : ℤ) (hk : Day.OK (cal k))
    (hinj : ∀ d : ℤ, start < 86400 * ((d : ℚ) + 1) → 86400 * (d : ℚ) ≤ stop →
      SameDay f (cal d) (cal k) → d = k) (path : List Code)
    (hp : IsFileOf st (cal k) f path) :
    path ∈ filesRead f cal archive stations start stop ↔
      path ∈ archive ∧ st ∈ stations ∧
      ∃ t : ℚ, start ≤ t ∧ t ≤ stop ∧ 86400 * (k : ℚ) ≤ t ∧ t < 86400 * ((k : ℚ) + 1) := by
  obtain ⟨days, -, h2, h3, -⟩ := C55_days stations start stop h
  unfold filesRead
  rw [h3, ← h2 k]
  simp only [List.mem_flatMap, List.mem_map]
  constructor
  · rintro ⟨q, ⟨d, hd, s, hsm, rfl⟩, hq⟩
    simp only [List.mem_filter] at hq
    obtain ⟨hq1, hq2⟩ := hq
    obtain ⟨t, t1, t2, t3, t4⟩ := (h2 d).1 hd
    rw [C77_match_iff_partial f hf s st (hs s hsm) hst _ _ (hcal d (by linarith) (by linarith)) hk path
      hp] at hq2
    obtain ⟨rfl, hsame⟩ := hq2
    rw [hinj d (by linarith) (by linarith) hsame] at hd
    exact ⟨hq1, hsm, hd⟩
  · rintro ⟨ha, hsm, hkm⟩
    refine ⟨⟨k, some st⟩, ⟨k, hkm, st, hsm, rfl⟩, ?_⟩
    simp only [List.mem_filter]
    exact ⟨ha, C77_own_files_found f st (cal k) path hp⟩

/-- Days 100 and 101 are 31 January and 1 February 2020. -/
def exCal (d : ℤ) : Day := if d = 100 then ⟨2020, 31, 1, 31⟩ else ⟨2020, 32, 2, 1⟩

def exArcFile : List Code := ["2020".toList, ['X'], ['A', '1'], "BHZ.D".toList,
  "X.A1..BHZ.D.2020.032".toList]

theorem exArcFile_of : IsFileOf ['A', '1'] (exCal 101) .seisComp3 exArcFile :=
  IsFileOf.seisComp3 ['X'] [] ['B', 'H', 'Z'] (by decide) (by decide) (by decide)

/-- A window over midnight, one station: the hypotheses of `C77_files_read_partial` hold and the
file is read. -/
example : exArcFile ∈ filesRead .seisComp3 exCal [exArcFile] [['A', '1']] (86400 * 101 - 10)
    (86400 * 101 + 10) := by
  have hok : ∀ d, Day.OK (exCal d) := by
    intro d
    unfold exCal
    split <;> exact ⟨by norm_num, by norm_num, by norm_num, by norm_num⟩
  rw [C77_files_read_partial .seisComp3 (Or.inl rfl) exCal [exArcFile] [['A', '1']]
    (by intro s hs; simp at hs; subst hs; decide) _ _ (by norm_num) (fun d _ _ => hok d) ['A', '1']
    (by decide) 101 (hok _) ?_ exArcFile exArcFile_of]
  · exact ⟨by simp, by simp, 86400 * 101, by norm_num, by norm_num, by norm_num, by norm_num⟩
  · intro d h1 h2 h3
    have g1 : (100 : ℚ) < d + 1 := by linarith
    have g2 : (d : ℚ) < 102 := by linarith
    have g3 : (100 : ℤ) < d + 1 := by exact_mod_cast g1
    have g4 : d < 102 := by exact_mod_cast g2
    by_contra hne
    have : d = 100 := by omega
    subst this
    simp [SameDay, exCal] at h3

end QM
